import Verif.Props.Optimizer
import Verif.Props.Costs

/-!
C57: the objective and the constraints of the optimisation, `optimizer.py`.
-/

set_option linter.unusedSectionVars false

namespace Sidermit

section Generic

variable {K : Type} [Field K] [LinearOrder K] [IsStrictOrderedRing K] [PyMath K]

/-! ## helpers -/

theorem tvW_congr {x : ExtGraph K} {z v z' v' : Dict (LoadKey K) K} (hz : ∀ k, z.getD k 0 = z'.getD k 0)
    (hv : ∀ k, v.getD k 0 = v'.getD k 0) (succ : ENode K → List (EEdge K)) : tvW x z v succ = tvW x z' v' succ := by
  funext i j
  unfold tvW
  have h1 : alightW x.nodes v i j = alightW x.nodes v' i j := by
    unfold alightW
    cases i with
    | route n =>
      cases j with
      | stop s =>
        simp only
        cases prevOf x.nodes n with
        | none => rfl
        | some p => simp only; rw [hv]
      | _ => rfl
    | _ => rfl
  have h2 : throughW z v succ i j = throughW z' v' succ i j := by
    unfold throughW
    congr 1
    apply List.map_congr_left
    intro e _
    unfold stayW
    cases i with
    | route p =>
      cases j with
      | route n =>
        cases e.j with
        | route _ => simp only; rw [hz, hv]
        | _ => rfl
      | _ => rfl
    | _ => rfl
  rw [h1, h2]

theorem fullest_eq (load : Dict (LoadKey K) K) (id : Str) : (mostLoaded load).getD id 0 = fullest load id := by
  obtain ⟨h1, h2⟩ := C45_maximum load id
  have hle : ∀ (l : List K), 0 ≤ l.foldr max 0 ∧ (∀ y ∈ l, y ≤ l.foldr max 0) ∧ ∀ m, 0 ≤ m → (∀ y ∈ l, y ≤ m) → l.foldr max 0 ≤ m := by
    intro l
    induction l with
    | nil => exact ⟨le_refl _, by simp, fun m hm _ => hm⟩
    | cons a l ih =>
      refine ⟨le_max_of_le_right ih.1, ?_, ?_⟩
      · intro y hy
        rcases List.mem_cons.mp hy with rfl | hy
        · exact le_max_left _ _
        · exact (ih.2.1 y hy).trans (le_max_right _ _)
      · intro m hm h
        exact max_le (h a (by simp)) (ih.2.2 m hm fun y hy => h y (by simp [hy]))
  obtain ⟨h3, h4, h5⟩ := hle ((load.filter fun p : LoadKey K × K => decide (p.1.1 = id)).map Prod.snd)
  have hmem : ∀ p ∈ load, p.1.1 = id → p.2 ∈ (load.filter fun p : LoadKey K × K => decide (p.1.1 = id)).map Prod.snd := by
    intro p hp hid
    exact List.mem_map.2 ⟨p, List.mem_filter.2 ⟨hp, by simpa using hid⟩, rfl⟩
  have hof : ∀ y ∈ (load.filter fun p : LoadKey K × K => decide (p.1.1 = id)).map Prod.snd, ∃ p ∈ load, p.1.1 = id ∧ p.2 = y := by
    intro y hy
    obtain ⟨p, hp, rfl⟩ := List.mem_map.1 hy
    exact ⟨p, (List.mem_filter.1 hp).1, by simpa using (List.mem_filter.1 hp).2, rfl⟩
  unfold fullest
  rw [Dict.getD]
  cases hg : (mostLoaded load).get? id with
  | none =>
    apply le_antisymm h3
    refine h5 0 (le_refl _) fun y hy => ?_
    obtain ⟨p, hp, hid, _⟩ := hof y hy
    obtain ⟨m, hm⟩ := h1.2 ⟨p, hp, hid⟩
    rw [hg] at hm; cases hm
  | some m =>
    obtain ⟨h6, h7, h8⟩ := h2 m hg
    apply le_antisymm
    · rcases h8 with rfl | ⟨p, hp, hid, rfl⟩
      · exact h3
      · exact h4 _ (hmem p hp hid)
    · refine h5 m h6 fun y hy => ?_
      obtain ⟨p, hp, hid, rfl⟩ := hof y hy
      exact h7 p hp hid

theorem getK_eq (load : Dict (LoadKey K) K) (id : Str) : (getK load).getD id 0 = fullest load id := by
  rw [← fullest_eq]
  have hnd : (Dict.keys (mostLoaded load)).Nodup := by
    unfold mostLoaded
    have : ∀ (l : Dict (LoadKey K) K) (d : Dict Str K), (Dict.keys d).Nodup → (Dict.keys (l.foldl maxStep d)).Nodup := by
      intro l
      induction l with
      | nil => exact fun d h => h
      | cons p l ih =>
        intro d h
        rw [List.foldl_cons]
        apply ih
        exact Dict.nodup_keys_set _ _ _ h
    exact this load [] (by simp [Dict.keys])
  have : ∀ (l d : Dict Str K), (Dict.keys (d ++ l)).Nodup → l.foldl (fun k p => k.set p.1 p.2) d = d ++ l := by
    intro l
    induction l with
    | nil => intro d _; simp
    | cons p l ih =>
      intro d h
      have hf : p.1 ∉ Dict.keys d := by
        intro hm
        rw [keys_append] at h
        exact List.disjoint_of_nodup_append h hm (by simp [Dict.keys])
      rw [List.foldl_cons, set_fresh _ _ _ hf, ih _ (by simpa using h)]
      simp
  rw [getK, this _ [] (by simpa using hnd)]
  rfl

/-! ## C57 -/

variable {g : Graph K} {d : Demand K} {pas : Passenger K} {net : Network K} {f : Option (Dict Str K)} {o : Optimizer K}

/-- an optimizer as the constructor prepares it, for lines with different ids and parameters that make sense -/
structure Built (g : Graph K) (d : Demand K) (pas : Passenger K) (net : Network K) (f : Option (Dict Str K))
    (o : Optimizer K) : Prop where
  built : Optimizer.prepare g d pas net f = .ok o
  ids : (net.routes.map Route.id).Nodup
  adm : Admissible net.routes pas.pt (some (f0 net.routes f).f) pas
  nodes : DistinctIds g
  walk : 0 < pas.va

/-- a dictionary with the frequencies `y` of the lines, in the order of the network -/
def Gives (net : Network K) (y : List K) (fr : Dict Str K) : Prop :=
  Dict.keys fr = net.routes.map Route.id ∧ ∀ (i : Nat) (r : Route K), net.routes[i]? = some r → fr.get? r.id = y[i]?

theorem Built.vector (hb : Built g d pas net f o) {y : List K} (hy : y.length = net.routes.length) :
    ∃ fr, foptToF o.lines y = .ok fr ∧ Gives net y fr := by
  obtain ⟨_, _, _, _, _, _, hl, _⟩ := prepare_fields hb.built
  rw [hl, f0_lines]
  obtain ⟨fr, h1, h2, h3⟩ := C54_dictionary (x := y) hb.ids (by simp [hy])
  refine ⟨fr, h1, ?_, fun i r hr => h3 i r.id (by simp [hr])⟩
  rw [h2, hy, List.take_of_length_le (by simp)]

theorem Gives.value {y : List K} {fr : Dict Str K} (h : Gives net y fr) (hn : ∀ c ∈ y, 0 ≤ c) (id : Str) : 0 ≤ fr.getD id 0 := by
  rw [Dict.getD]
  cases hg : fr.get? id with
  | none => exact le_refl _
  | some c =>
    have hk : id ∈ Dict.keys fr := (Dict.mem_keys_iff fr id).2 ⟨c, hg⟩
    rw [h.1] at hk
    obtain ⟨r, hr, rfl⟩ := List.mem_map.1 hk
    obtain ⟨i, hi, he⟩ := List.getElem_of_mem hr
    have := h.2 i r (by rw [List.getElem?_eq_getElem hi, he])
    rw [hg] at this
    exact hn c (List.mem_of_getElem? this.symm)

/-- every line that the search of paths could use still runs -/
def StillRuns (net : Network K) (o : Optimizer K) (fr : Dict Str K) : Prop :=
  ∀ r ∈ net.routes, 0 < o.f.getD r.id 0 → 0 < fr.getD r.id 0

/-- at every stop to which trips are led and where lines are boarded, one of these lines runs -/
def Carries (o : Optimizer K) (fr : Dict Str K) : Prop :=
  ∀ p ∈ o.pairs, ∀ s, LedTo p (.stop s) → ∀ b ∈ p.1.res.succ (.stop s), b.type = .boarding →
    ∃ b' ∈ p.1.res.succ (.stop s), ∃ n, b'.j = .route n ∧ 0 < fr.getD n.route.id 0

/-- the pairs of an optimizer, for the theorems on the loading -/
theorem Built.pairs_loading (hb : Built g d pas net f o) :
    (∀ id, 0 ≤ o.f.getD id 0) ∧ Loading o.ext pas (allNodes o.ext.nodes).length o.f o.pairs ∧
    ∀ id, 0 ≠ o.f.getD id 0 → ∃ r ∈ net.routes, r.id = id := by
  obtain ⟨_, _, _, _, hf, _, _, hx, res, shares, p, hres, _, _, hp⟩ := prepare_fields hb.built
  have hkeys : Dict.keys o.f = net.routes.map Route.id := by rw [hf]; exact (C54_start hb.ids f).2.2.1
  have hmem : ∀ id, 0 ≠ o.f.getD id 0 → ∃ r ∈ net.routes, r.id = id := by
    intro id hne
    rw [Dict.getD] at hne
    cases hg : o.f.get? id with
    | none => rw [hg] at hne; exact absurd rfl hne
    | some c =>
      have hk : id ∈ Dict.keys o.f := (Dict.mem_keys_iff o.f id).2 ⟨c, hg⟩
      rw [hkeys] at hk
      obtain ⟨r, hr, h⟩ := List.mem_map.1 hk
      exact ⟨r, hr, h⟩
  have hadm := hb.adm
  rw [← hf] at hadm
  have h0 : ∀ id, 0 ≤ (frequencies net.routes (some o.f)).getD id 0 := by
    intro id
    show 0 ≤ o.f.getD id 0
    by_cases hz : 0 = o.f.getD id 0
    · exact hz.le
    · obtain ⟨r, hr, rfl⟩ := hmem id hz
      exact hadm.freqs r hr
  have hl := C44_applies hadm hb.nodes hx h0 hres shares
  rw [← hp] at hl
  exact ⟨h0, hl, hmem⟩

theorem Built.loading_of (hb : Built g d pas net f o) {fr : Dict Str K} (hfr : ∀ id, 0 ≤ fr.getD id 0)
    (hrun : Carries o fr) : Loading o.ext pas (allNodes o.ext.nodes).length fr o.pairs :=
  ⟨le_refl _, hb.pairs_loading.2.1.computed, fun q hq => ⟨hfr, hrun q hq⟩⟩

/-- it is enough that every line that the search of paths could use still runs -/
theorem Built.carries (hb : Built g d pas net f o) {fr : Dict Str K} (hrun : StillRuns net o fr) : Carries o fr := by
  obtain ⟨_, hl, hmem⟩ := hb.pairs_loading
  intro q hq s hs b hbm ht
  obtain ⟨b', hb', n, hn, hpos⟩ := (hl.run q hq).some_line s hs b hbm ht
  obtain ⟨r, hr, hid⟩ := hmem n.route.id (ne_of_lt hpos)
  refine ⟨b', hb', n, hn, ?_⟩
  rw [← hid]
  refine hrun r hr ?_
  rw [hid]; exact hpos

theorem Built.loading (hb : Built g d pas net f o) {fr : Dict Str K} (hfr : ∀ id, 0 ≤ fr.getD id 0)
    (hrun : StillRuns net o fr) : Loading o.ext pas (allNodes o.ext.nodes).length fr o.pairs :=
  hb.loading_of hfr (hb.carries hrun)

/-- C57: the objective is the operators' cost of the running lines, the cost of the streets used by each mode, and the worth of
the users' times.  It exists for all frequencies that leave a running line at the stops where passengers wait.  `A` and `B` are the nodes of the
lines, `S` the streets used by each mode, `T` a list of the entries of the tables. -/
theorem C57_total_cost (hb : Built g d pas net f o) {n : Nat} (hs : CityShape g n) (hm : net.modes.Nodup)
    (hv : ∀ r ∈ net.routes, r.mode.bya = 0 ∨ r.mode.bya = 1) {A B : Route K → List (Node K)}
    (hA : ∀ r ∈ net.routes, (∀ a ∈ A r, a ∈ g.nodes) ∧ (A r).map Node.id = r.nodesI ∧ OnStreets g r.nodesI)
    (hB : ∀ r ∈ net.routes, (∀ a ∈ B r, a ∈ g.nodes) ∧ (B r).map Node.id = r.nodesR ∧ OnStreets g r.nodesR)
    {y : List K} (hlen : y.length = net.routes.length) (hy : ∀ c ∈ y, 0 ≤ c) :
    ∃ fr, Gives net y fr ∧ (Carries o fr → ∃ t u, o.loads fr = .ok t ∧
      resourcesConsumer (allNodes o.ext.nodes).length fr o.ext pas.va t.z t.v o.pairs = .ok u ∧
      ∀ (S : Mode K → List (Node K × Node K)) (T : List (LoadKey K)),
        (∀ m ∈ net.modes, EachOnce (UsedStreet g n net.routes fr m) (S m)) → T.Nodup → (∀ k ∈ Dict.keys t.z, k ∈ T) →
        (∀ k ∈ Dict.keys t.v, k ∈ T) →
        o.vrc y = .ok
          (((net.routes.filter fun r => fr.getD r.id 0 ≠ 0).map fun r =>
              (r.mode.co + r.mode.c1 * fullest t.load r.id) * (fr.getD r.id 0 * cycleOf t.z t.v T A B r)).sum +
            (net.modes.map fun m => m.c2 * ((m.d : K) * lengthOf (S m))).sum + worth pas u)) := by
  obtain ⟨fr, hfr, hg⟩ := hb.vector hlen
  refine ⟨fr, hg, fun hrun => ?_⟩
  have hl := hb.loading_of (hg.value hy) hrun
  obtain ⟨e1, e2, e3, e4, hf, _, _, hx, _⟩ := prepare_fields hb.built
  have hadm := hb.adm
  rw [← hf] at hadm
  obtain ⟨t, ht⟩ := C44_terminates hadm hb.nodes hx hl
  obtain ⟨u, hu⟩ := C52_terminates (z := t.z) (v := t.v) hadm hb.nodes hx hl hb.walk.ne'
  obtain ⟨hz, hv'⟩ := C50_applies hadm hb.nodes hx hl ht
  refine ⟨t, u, ht, hu, ?_⟩
  intro S T hS hT hTz hTv
  obtain ⟨times, htimes, htime⟩ := C49_travel_time hs hb.nodes hb.ids (fun r hr => (hb.adm.modes r hr).speed)
  obtain ⟨hz', hv'', _⟩ := C50_tables_unchanged hz hv' net.routes times
  have hu' : resourcesConsumer (allNodes o.ext.nodes).length fr o.ext pas.va (getCycleTime t.z t.v net.routes times).z
      (getCycleTime t.z t.v net.routes times).v o.pairs = .ok u := by
    rw [← hu, resources_spec (hl.users hadm hb.nodes hx hb.walk.ne'), resources_spec (hl.users hadm hb.nodes hx hb.walk.ne')]
    simp only [tvW_congr hz' hv'']
  have hcyc : ∀ r ∈ net.routes, (getCycleTime t.z t.v net.routes times).time.getD r.id 0 = cycleOf t.z t.v T A B r := by
    intro r hr
    obtain ⟨h0, h1⟩ := C50_cycle_time hz hv' hb.ids times hT hTz hTv hr
    have htr : times.getD r.id 0 = (travelled (A r) + travelled (B r)) / r.mode.v := by
      rw [Dict.getD, htime r hr (A r) (B r) (hA r hr).1 (hB r hr).1 (hA r hr).2.1 (hB r hr).2.1 (hA r hr).2.2 (hB r hr).2.2]
      rfl
    rw [Dict.getD, cycleOf, standing]
    rcases hv r hr with hb0 | hb1
    · rw [h0 hb0, if_pos hb0, ← htr]; rfl
    · rw [h1 hb1, if_neg (by rw [hb1]; decide), ← htr]; rfl
  have hworth : resourcesCost pas u = worth pas u := by
    rw [resourcesCost, worth]; ring
  rw [Optimizer.vrc, hfr, py_ok_bind, Optimizer.loads, ht, py_ok_bind, Optimizer.costs, Optimizer.operatorsCost, e4, e1, e3, htimes]
  simp only [py_ok_bind, py_pure]
  rw [usersCost, hu']
  simp only [py_ok_bind, py_pure]
  rw [C46_cost hs hb.nodes net.routes hm fr hS, hworth]
  congr 3
  classical
  rw [C51_sum]
  have hfil : ∀ rs : List (Route K), (∀ r ∈ rs, r ∈ net.routes) →
      ((rs.filter fun r => Active fr r).map fun r => (r.mode.co + r.mode.c1 * (getK t.load).getD r.id 0) *
        (fr.getD r.id 0 * (getCycleTime t.z t.v net.routes times).time.getD r.id 0)).sum =
      ((rs.filter fun r => fr.getD r.id 0 ≠ 0).map fun r =>
        (r.mode.co + r.mode.c1 * fullest t.load r.id) * (fr.getD r.id 0 * cycleOf t.z t.v T A B r)).sum := by
    intro rs
    induction rs with
    | nil => intro _; rfl
    | cons r rs ih =>
      intro h
      have ih' := ih fun r hr => h r (by simp [hr])
      by_cases ha : fr.getD r.id 0 = 0
      · rw [List.filter_cons, if_neg (show ¬ decide (Active fr r) = true from fun h => (of_decide_eq_true h) ha),
          List.filter_cons_of_neg (by simpa using ha), ih']
      · rw [List.filter_cons, if_pos (show decide (Active fr r) = true from decide_eq_true ha),
          List.filter_cons_of_pos (by simpa using ha), List.map_cons, List.map_cons, List.sum_cons, List.sum_cons, ih', hcyc r (h r (by simp)), getK_eq]
  exact hfil net.routes fun r hr => hr

/-- C57: the constraints.  There is one value per line and one per edge and mode, and none is positive if and only if every
vehicle has room for its passengers on every section and no street has more vehicles of a mode than it can take -/
theorem C57_constraints (hb : Built g d pas net f o) {n : Nat} (hs : CityShape g n) (hd : ∀ m ∈ net.modes, 0 < m.d)
    (hk : ∀ r ∈ net.routes, 0 ≤ r.mode.kmax) {y : List K} (hlen : y.length = net.routes.length) (hy : ∀ c ∈ y, 0 ≤ c) :
    ∃ fr, Gives net y fr ∧ (Carries o fr → ∃ t c, o.loads fr = .ok t ∧ o.constrains y = .ok c ∧
      c.length = net.routes.length + g.edges.length * net.modes.length ∧
      ((∀ w ∈ c, w ≤ 0) ↔
        (∀ r ∈ net.routes, ∀ p ∈ t.load, p.1.1 = r.id → p.2 ≤ r.mode.kmax) ∧
        ∀ a ∈ g.nodes, ∀ b ∈ g.nodes, Street n a b → ∀ m ∈ net.modes, vehicleFlow net.routes fr m a.id b.id ≤ m.fmax)) := by
  obtain ⟨fr, hfr, hg⟩ := hb.vector hlen
  refine ⟨fr, hg, fun hrun => ?_⟩
  have hl := hb.loading_of (hg.value hy) hrun
  obtain ⟨e1, _, _, e4, hf, _, _, hx, _⟩ := prepare_fields hb.built
  have hadm := hb.adm
  rw [← hf] at hadm
  obtain ⟨t, ht⟩ := C44_terminates hadm hb.nodes hx hl
  obtain ⟨c, hc, hclen, _⟩ := C47_values hs net.routes net.modes fr hd
  obtain ⟨hklen, hkv⟩ := C48_vehicle_capacity net.routes t.load
  refine ⟨t, kConstrains net.routes (mostLoaded t.load) ++ c, ht, ?_, ?_, ?_⟩
  · rw [Optimizer.constrains, hfr, py_ok_bind, Optimizer.loads, ht, py_ok_bind, e1, e4, hc]
    rfl
  · rw [List.length_append, hklen, hclen]
  · have hfeas := C47_feasible_iff hs hb.nodes net.routes net.modes fr hd hc
    constructor
    · intro h
      refine ⟨?_, hfeas.1 fun w hw => h w (by simp [hw])⟩
      intro r hr
      obtain ⟨i, hi, he⟩ := List.getElem_of_mem hr
      obtain ⟨w, hw, hiff, _⟩ := hkv i r (by rw [List.getElem?_eq_getElem hi, he]) (hk r hr)
      exact hiff.1 (h w (List.mem_append_left _ (List.mem_of_getElem? hw)))
    · rintro ⟨h1, h2⟩ w hw
      rcases List.mem_append.1 hw with hw | hw
      · obtain ⟨i, hi, he⟩ := List.getElem_of_mem hw
        have hi' : i < net.routes.length := by omega
        obtain ⟨w', hw', hiff, _⟩ := hkv i net.routes[i] (List.getElem?_eq_getElem hi') (hk _ (List.getElem_mem hi'))
        rw [List.getElem?_eq_getElem hi, he] at hw'
        cases hw'
        exact hiff.2 (h1 _ (List.getElem_mem hi'))
      · exact hfeas.2 h2 w hw

/-- C57: building an optimizer does not fail in the evaluation of the constraints at the initial frequencies of the modes, if
these are positive -/
theorem C57_constructor (hb : Built g d pas net f o) {n : Nat} (hs : CityShape g n) (hd : ∀ m ∈ net.modes, 0 < m.d)
    (hk : ∀ r ∈ net.routes, 0 ≤ r.mode.kmax) (hini : ∀ r ∈ net.routes, 0 < r.mode.fini) :
    Optimizer.init g d pas net f = .ok o := by
  obtain ⟨_, _, _, _, hf, hfopt, _⟩ := prepare_fields hb.built
  rw [f0_fopt] at hfopt
  obtain ⟨fr, hg, h⟩ := C57_constraints hb hs hd hk (y := o.fopt) (by rw [hfopt]; simp) (by
    rw [hfopt]
    intro c hc
    obtain ⟨r, hr, rfl⟩ := List.mem_map.1 hc
    exact (hini r hr).le)
  obtain ⟨t, c, _, hc, _⟩ := h <| hb.carries fun r hr _ => by
    obtain ⟨i, hi, he⟩ := List.getElem_of_mem hr
    have := hg.2 i r (by rw [List.getElem?_eq_getElem hi, he])
    rw [Dict.getD, this, hfopt, List.getElem?_map, List.getElem?_eq_getElem hi, he]
    exact hini r hr
  rw [Optimizer.init, hb.built, py_ok_bind, hc]
  rfl

end Generic

section Examples

attribute [local instance] ratMath ratText

/-- the optimizer of the demonstration network -/
def busOpt : Optimizer ℚ := ((Optimizer.prepare (demoCity 3) busDemand demoFair busNet none).toOption).getD
  ⟨demoCity 3, busDemand, demoFair, busNet, [], [], [], ⟨[], []⟩, []⟩

theorem isOk_of_toOption {α : Type} {e : Py α} (a : α) (h : e.toOption.isSome = true) : e = .ok (e.toOption.getD a) := by
  cases e with
  | error _ => cases h
  | ok b => rfl

theorem busBuilt : Built (demoCity 3) busDemand demoFair busNet none busOpt := by
  refine ⟨isOk_of_toOption _ (by decide +kernel), by decide +kernel, ?_, demoShape.2, by norm_num [demoFair, demoPassenger]⟩
  refine ⟨?_, ?_, by norm_num [demoFair, demoPassenger], ?_, by norm_num [demoFair, demoPassenger],
    by norm_num [demoFair, demoPassenger], by norm_num [demoFair, demoPassenger]⟩
  · have : ∀ r ∈ busNet.routes, 0 ≤ r.mode.tat ∧ 0 < r.mode.theta ∧ 0 < r.mode.v ∧ 0 < (r.mode.d : ℚ) := by decide +kernel
    exact fun r hr => ⟨(this r hr).1, (this r hr).2.1, (this r hr).2.2.1, (this r hr).2.2.2⟩
  · decide +kernel
  · exact demoAdmissible.root

/-- C57: the hypotheses hold for the network of two lines and the frequencies 2 and 3 -/
example : CityShape (demoCity 3) 3 ∧ busNet.modes.Nodup ∧ (∀ r ∈ busNet.routes, r.mode.bya = 0 ∨ r.mode.bya = 1) ∧
    (∀ r ∈ busNet.routes, 0 < r.mode.fini ∧ 0 ≤ r.mode.kmax) ∧ (∀ m ∈ busNet.modes, 0 < m.d) ∧
    StillRuns busNet busOpt [("a".toList, 2), ("c".toList, 3)] ∧
    (∀ r ∈ busNet.routes, (r.nodesI.filterMap fun i => (demoCity 3).nodes.find? fun n => n.id = i).map Node.id = r.nodesI ∧
      (r.nodesR.filterMap fun i => (demoCity 3).nodes.find? fun n => n.id = i).map Node.id = r.nodesR) ∧
    ∀ r ∈ busNet.routes, (∀ p ∈ pairs r.nodesI, (demoCity 3).edgeExist p.1 p.2 = true) ∧
      ∀ p ∈ pairs r.nodesR, (demoCity 3).edgeExist p.1 p.2 = true := by
  refine ⟨demoShape.1, by decide +kernel, by decide +kernel, by decide +kernel, by decide +kernel, ?_, by decide +kernel,
    by decide +kernel⟩
  unfold StillRuns
  decide +kernel

/-- C57: the objective and the constraints there, two of the lines and 18 of the edges -/
example : busOpt.vrc [2, 3] = .ok (217459 / 1350) ∧ (busOpt.constrains [2, 3]).map (fun c => (c.length, c.take 3)) =
    .ok (20, [-113, -118, -118]) := by
  refine ⟨by decide +kernel, by decide +kernel⟩

/-- C57: the objective has no value when a line of the paths stops running -/
theorem C57_stopped_line_fails : busOpt.vrc [2, 0] = .error .ZeroDivisionError := by decide +kernel

/-- the lines of the demonstration with the initial frequency 0, which modes accept -/
def idleNet : Network ℚ :=
  let rs := demoBuses.map fun r => { r with mode := { r.mode with fini := 0 } }
  ⟨demoCity 3, rs, rs.map Route.id, [{ demoMode with fini := 0 }]⟩

/-- C57: with initial frequencies 0 the constructor fails, though frequencies are given and there are paths -/
theorem C57_zero_start_fails :
    (Optimizer.prepare (demoCity 3) busDemand demoFair idleNet (some [("a".toList, 2), ("c".toList, 3)])).toOption.isSome = true ∧
    (Optimizer.init (demoCity 3) busDemand demoFair idleNet (some [("a".toList, 2), ("c".toList, 3)])).map Optimizer.fopt =
      .error .ZeroDivisionError := by
  refine ⟨by decide +kernel, by decide +kernel⟩

end Examples

end Sidermit
