import Verif.Proofs.Domain
import Verif.Proofs.Demand
import Verif.Spec.Problem
import Verif.Props.TotalCost

/-!
C87: the problem that `optimizer.py` hands to the solver, and the frequencies for which it is defined.
-/

set_option linter.unusedSectionVars false

namespace Sidermit

section Generic

variable {K : Type} [Field K] [LinearOrder K] [IsStrictOrderedRing K] [PyMath K]
variable {g : Graph K} {routes : List (Route K)} {sPTP : K} {freq : Option (Dict Str K)} {pas : Passenger K} {x : ExtGraph K}

/-! ## helpers -/

theorem LedTo.item {p : ODResult K × Dict (StopNode K) K} {N : Nat} {f : Dict Str K} (hN : 0 < N)
    (hnil : ∀ s ∈ Dict.keys p.1.paths,
      genN (loadKids f p.1.res.succ p.1.dest) N (follow p.1.res.succ (.stop s) (stopTrips p s)) = [])
    {y : ENode K} (h : LedTo p y) : ∃ s ∈ Dict.keys p.1.paths, stopTrips p s ≠ 0 ∧ ∀ e ∈ p.1.res.succ y, ∃ a,
      (⟨y, e.j, a⟩ : Item K) ∈ gens (loadKids f p.1.res.succ p.1.dest) N (follow p.1.res.succ (.stop s) (stopTrips p s)) := by
  induction h with
  | @start s hs h1 h2 =>
    refine ⟨s, hs, ?_, fun e he => ⟨stopTrips p s, ?_⟩⟩
    · exact div_ne_zero (mul_ne_zero h1 h2) (by norm_num)
    · exact gens_subset _ hN _ _ (List.mem_map.2 ⟨e, he, rfl⟩)
  | @next y e' _ he' hs ih =>
    obtain ⟨s, hs1, hs2, hall⟩ := ih
    refine ⟨s, hs1, hs2, fun e he => ?_⟩
    obtain ⟨a, ha⟩ := hall e' he'
    have hno : stopOf p.1.dest e'.j = false := by
      cases hj : e'.j with
      | stop s' => simp [stopOf, hs s' hj]
      | city c => rfl
      | route n => rfl
    refine ⟨_, gens_closed _ N _ (hnil s hs1) _ ha ⟨e'.j, e.j, disOf f p.1.res.succ ⟨y, e'.j, a⟩⟩ ?_⟩
    unfold loadKids
    rw [if_neg (by simp [hno])]
    exact List.mem_map.2 ⟨e, he, rfl⟩

/-- the loading of a pair ends if some line runs wherever its trips wait, and otherwise divides by zero -/
theorem loadPair_cases (ha : Admissible routes sPTP freq pas) (hd : DistinctIds g)
    (hx : buildExtGraph g routes sPTP freq = .ok x) {p : ODResult K × Dict (StopNode K) K} (he : p.1.Computed x pas) {N : Nat}
    (hN : (allNodes x.nodes).length ≤ N) {f : Dict Str K} (hf : ∀ id, 0 ≤ f.getD id 0) (t : Loads K) :
    (∃ t', loadPair N f t p = .ok t' ∧ LinesRun f p) ∨ loadPair N f t p = .error .ZeroDivisionError ∧ ¬ LinesRun f p := by
  obtain ⟨hk, _, hedge, ⟨rank, hr, hrN⟩, hboard, _⟩ := he.reach ha hd hx
  have hb : ∀ s, ∀ b ∈ p.1.res.succ (.stop s), ∀ n, b.j = .route n → b.type = .boarding := by
    intro s b hb n hn
    obtain ⟨hbx, hbi⟩ := hedge _ b hb
    rcases edge_cases hd hx hbx with ⟨_, s, h5, h6⟩ | ⟨_, s, h5, h6⟩ | ⟨ht, _⟩ | ⟨_, n, _, h5, h6⟩ | ⟨_, p, n, _, _, _, h5, h6⟩
    · rw [hn] at h6; cases h6
    · rw [hn] at h6; cases h6
    · exact ht
    · rw [hn] at h6; cases h6
    · rw [hbi] at h5; cases h5
  have hroute : ∀ s, ∀ b ∈ p.1.res.succ (.stop s), ∀ n, b.j = .route n → ∀ b' ∈ p.1.res.succ (.stop s), ∃ m, b'.j = .route m := by
    intro s b hbm n hn b' hb'
    obtain ⟨_, _, hall⟩ := hboard _ b hbm (hb s b hbm n hn)
    exact (hall b' hb').2.1
  have hnil : ∀ s ∈ Dict.keys p.1.paths,
      genN (loadKids f p.1.res.succ p.1.dest) N (follow p.1.res.succ (.stop s) (stopTrips p s)) = [] := by
    intro s hs
    refine genN_eq_nil hr N _ ?_
    intro w hw
    rw [follow, List.mem_map] at hw
    obtain ⟨e, he, rfl⟩ := hw
    exact (hr _ e he).trans ((hrN s hs).trans_le hN)
  let P : StopNode K → Prop := fun s => stopTrips p s ≠ 0 →
    ∀ w ∈ gens (loadKids f p.1.res.succ p.1.dest) N (follow p.1.res.succ (.stop s) (stopTrips p s)), w.Fine f p.1.res.succ
  have hstop : ∀ t, ∀ s ∈ Dict.keys p.1.paths, (∃ t', loadStop N f p.1 p.2 t s = .ok t' ∧ P s) ∨
      loadStop N f p.1 p.2 t s = .error .ZeroDivisionError ∧ ¬ P s := by
    intro t s hs
    have hdef : loadStop N f p.1 p.2 t s = if stopTrips p s = 0 then .ok t else
        levels (loadStep f p.1.res.succ p.1.dest) N t (follow p.1.res.succ (.stop s) (stopTrips p s)) := rfl
    rw [hdef]
    by_cases h0 : stopTrips p s = 0
    · rw [if_pos h0]
      exact .inl ⟨t, rfl, fun h => absurd h0 h⟩
    · rw [if_neg h0, levels_eq (loadStep_eq f p.1.res.succ p.1.dest)]
      simp only [hnil s hs, if_true]
      have hitem : ∀ t, ∀ w ∈ gens (loadKids f p.1.res.succ p.1.dest) N (follow p.1.res.succ (.stop s) (stopTrips p s)),
          (∃ t', loadEff f p.1.res.succ t w = .ok t' ∧ w.Fine f p.1.res.succ) ∨
          loadEff f p.1.res.succ t w = .error .ZeroDivisionError ∧ ¬ w.Fine f p.1.res.succ := by
        intro t w hw
        refine loadEff_cases ?_ t
        obtain ⟨e, hes, hej⟩ := gens_edge N _ (by
          intro w hw
          rw [follow, List.mem_map] at hw
          obtain ⟨e, he, rfl⟩ := hw
          exact ⟨e, he, rfl⟩) w hw
        intro s' n hi hj b hbm
        rw [hi] at hes
        exact hroute s' e hes n (hej.trans hj) b hbm
      rcases foldlM_cases _ t hitem with ⟨t', h1, h2⟩ | ⟨h1, w, hw, h2⟩
      · rw [h1, py_ok_bind]
        exact .inl ⟨t', rfl, fun _ => h2⟩
      · rw [h1]
        exact .inr ⟨rfl, fun h => h2 (h h0 w hw)⟩
  have hiff : (∀ s ∈ Dict.keys p.1.paths, P s) ↔ LinesRun f p := by
    constructor
    · intro h
      refine ⟨hf, ?_⟩
      intro s hs b hbm ht
      have hpos : 0 < N := by
        obtain ⟨s', hs'⟩ : ∃ s', s' ∈ Dict.keys p.1.paths := by
          clear ht hbm
          generalize ENode.stop s = y at hs
          induction hs with
          | start hs _ _ => exact ⟨_, hs⟩
          | next _ _ _ ih => exact ih
        have := hrN s' hs'
        omega
      obtain ⟨s0, hs0, h0, hall⟩ := hs.item hpos hnil
      obtain ⟨a, hw⟩ := hall b hbm
      obtain ⟨_, _, hallb⟩ := hboard _ b hbm ht
      obtain ⟨n, hn⟩ := (hallb b hbm).2.1
      have hsum := h s0 hs0 h0 _ hw s n rfl hn
      by_contra hcon
      push Not at hcon
      apply hsum
      apply List.sum_eq_zero
      intro z hz
      obtain ⟨b', hb', rfl⟩ := List.mem_map.1 hz
      obtain ⟨m, hm⟩ := (hallb b' hb').2.1
      rw [hm]
      exact le_antisymm (hcon b' hb' m hm) (hf _)
    · intro h s hs h0 w hw s' n hi hj
      obtain ⟨hnet, hstart⟩ := h.net ha hd hx he
      obtain ⟨hl, e, hes, hej⟩ := gens_on hnet N _ (follow_on (hstart s hs h0) _) w hw
      rw [hi] at hl hes
      exact (hnet.board s' hl e hes n (hej.trans hj)).2
  unfold loadPair
  rcases foldlM_cases _ t hstop with ⟨t', h1, h2⟩ | ⟨h1, s, hs, h2⟩
  · exact .inl ⟨t', h1, hiff.1 h2⟩
  · exact .inr ⟨h1, fun h => h2 (hiff.2 h s hs)⟩

/-! ## C87 -/

variable {d : Demand K} {net : Network K} {f : Option (Dict Str K)} {o : Optimizer K}

/-- C87: the loading of the lines exists exactly for the frequencies that leave, at every stop where passengers wait, a running
line among those they would take; for all others there is a division by zero -/
theorem C87_loads (hb : Built g d pas net f o) {fr : Dict Str K} (hfr : ∀ id, 0 ≤ fr.getD id 0) :
    (Carries o fr → ∃ t, o.loads fr = .ok t) ∧ (¬ Carries o fr → o.loads fr = .error .ZeroDivisionError) := by
  obtain ⟨_, hl, _⟩ := hb.pairs_loading
  obtain ⟨_, _, _, _, hf, _, _, hx, _⟩ := prepare_fields hb.built
  have hadm := hb.adm
  rw [← hf] at hadm
  have hcases := foldlM_cases o.pairs (⟨[], [], []⟩ : Loads K) fun t p hp =>
    loadPair_cases hadm hb.nodes hx (hl.computed p hp) (le_refl _) hfr t
  have hall : Carries o fr ↔ ∀ p ∈ o.pairs, LinesRun fr p :=
    ⟨fun h p hp => ⟨hfr, h p hp⟩, fun h p hp => (h p hp).some_line⟩
  unfold Optimizer.loads getLoads
  rcases hcases with ⟨t, h1, h2⟩ | ⟨h1, p, hp, h2⟩
  · rw [h1, py_ok_bind]
    exact ⟨fun _ => ⟨_, rfl⟩, fun h => absurd (hall.2 h2) h⟩
  · rw [h1]
    exact ⟨fun h => absurd (hall.1 h p hp) h2, fun _ => rfl⟩

/-- C87: the value of the objective and of the constraints, and the constructor, fail with a division by zero exactly for the
other frequencies -/
theorem C87_undefined (hb : Built g d pas net f o) {y : List K} (hlen : y.length = net.routes.length) (hy : ∀ c ∈ y, 0 ≤ c) :
    ∃ fr, Gives net y fr ∧ (¬ Carries o fr → o.vrc y = .error .ZeroDivisionError ∧ o.constrains y = .error .ZeroDivisionError ∧
      (y = net.routes.map (fun r => r.mode.fini) → Optimizer.init g d pas net f = .error .ZeroDivisionError)) := by
  obtain ⟨fr, hfr, hg⟩ := hb.vector hlen
  refine ⟨fr, hg, fun h => ?_⟩
  have hl := (C87_loads hb (hg.value hy)).2 h
  have hc : o.constrains y = .error .ZeroDivisionError := by
    rw [Optimizer.constrains, hfr, py_ok_bind, hl]
    rfl
  refine ⟨?_, hc, ?_⟩
  · rw [Optimizer.vrc, hfr, py_ok_bind, hl]
    rfl
  · intro h0
    obtain ⟨_, _, _, _, _, hfopt, _⟩ := prepare_fields hb.built
    rw [f0_fopt] at hfopt
    rw [Optimizer.init, hb.built, py_ok_bind, hfopt, ← h0, hc]
    rfl

theorem gives_unique (hids : (net.routes.map Route.id).Nodup) {y : List K} {fr fr' : Dict Str K} (h : Gives net y fr)
    (h' : Gives net y fr') : fr = fr' := by
  refine dict_ext (h.1.trans h'.1.symm) (h.1 ▸ hids) ?_
  intro k hk
  rw [h.1] at hk
  obtain ⟨r, hr, rfl⟩ := List.mem_map.1 hk
  obtain ⟨i, hi, he⟩ := List.getElem_of_mem hr
  have hg : net.routes[i]? = some r := by rw [List.getElem?_eq_getElem hi, he]
  rw [h.2 i r hg, h'.2 i r hg]

theorem constrains_length (hb : Built g d pas net f o) {n : Nat} (hs : CityShape g n) (hd : ∀ m ∈ net.modes, 0 < m.d) {y v : List K}
    (hlen : y.length = net.routes.length) (h : o.constrains y = .ok v) :
    v.length = net.routes.length + g.edges.length * net.modes.length := by
  obtain ⟨fr, hfr, hg⟩ := hb.vector hlen
  obtain ⟨e1, _, _, e4, _⟩ := prepare_fields hb.built
  obtain ⟨c, hc, hclen, _⟩ := C47_values hs net.routes net.modes fr hd
  rw [Optimizer.constrains, hfr, py_ok_bind] at h
  obtain ⟨t, ht, h⟩ := py_bind_eq_ok.1 h
  rw [e1, e4, hc, py_ok_bind] at h
  cases h
  rw [List.length_append, (C48_vehicle_capacity net.routes t.load).1, hclen]

theorem vrc_defined (hb : Built g d pas net f o) {n : Nat} (hs : CityShape g n) {y : List K} (hy : ∀ c ∈ y, 0 ≤ c) {fr : Dict Str K} (hfr : foptToF o.lines y = .ok fr)
    (hg : Gives net y fr) (h : Carries o fr) : ∃ c, o.vrc y = .ok c := by
  have hl := hb.loading_of (hg.value hy) h
  obtain ⟨e1, e2, e3, e4, hf, _, _, hx, _⟩ := prepare_fields hb.built
  have hadm := hb.adm
  rw [← hf] at hadm
  obtain ⟨t, ht⟩ := (C87_loads hb (hg.value hy)).1 h
  obtain ⟨times, htimes, _⟩ := C49_travel_time hs hb.nodes hb.ids (fun r hr => (hb.adm.modes r hr).speed)
  obtain ⟨u, hu⟩ := C52_terminates (z := (getCycleTime t.z t.v net.routes times).z) (v := (getCycleTime t.z t.v net.routes times).v)
    hadm hb.nodes hx hl hb.walk.ne'
  rw [Optimizer.vrc, hfr, py_ok_bind, ht, py_ok_bind, Optimizer.costs, Optimizer.operatorsCost, e4, e1, e3, htimes]
  simp only [py_ok_bind, py_pure]
  rw [usersCost, hu]
  exact ⟨_, rfl⟩

theorem forall₂_replicate {α β : Type} {R : α → β → Prop} {a : α} : ∀ {l : List β} {n : Nat},
    List.Forall₂ R (List.replicate n a) l ↔ l.length = n ∧ ∀ c ∈ l, R a c
  | [], 0 => by simp
  | [], n + 1 => by simp [List.replicate_succ]
  | c :: l, 0 => by simp
  | c :: l, n + 1 => by
    rw [List.replicate_succ, List.forall₂_cons, forall₂_replicate]
    simp only [List.length_cons, Nat.add_right_cancel_iff, List.mem_cons, forall_eq_or_imp]
    tauto

/-- C87: the problem handed to the solver.  The solver may choose exactly the frequencies that are not negative, one per line,
that leave a running line wherever passengers wait, give every vehicle room for its passengers on every section, and keep every
street within what it can take; there the objective has a value. -/
theorem C87_problem (hb : Built g d pas net f o) (hi : Optimizer.init g d pas net f = .ok o) {n : Nat} (hs : CityShape g n)
    (hd : ∀ m ∈ net.modes, 0 < m.d) (hk : ∀ r ∈ net.routes, 0 ≤ r.mode.kmax) :
    ∃ p, o.problem = .ok p ∧ p.start = net.routes.map (fun r => r.mode.fini) ∧ p.objective = o.vrc ∧
      (∀ y, p.Allows y → ∃ c, p.objective y = .ok c) ∧
      ∀ y, p.Allows y ↔ y.length = net.routes.length ∧ (∀ c ∈ y, 0 ≤ c) ∧ ∃ fr, Gives net y fr ∧ Carries o fr ∧
        ∃ t, o.loads fr = .ok t ∧ (∀ r ∈ net.routes, ∀ q ∈ t.load, q.1.1 = r.id → q.2 ≤ r.mode.kmax) ∧
          ∀ a ∈ g.nodes, ∀ b ∈ g.nodes, Street n a b → ∀ m ∈ net.modes, vehicleFlow net.routes fr m a.id b.id ≤ m.fmax := by
  obtain ⟨_, _, _, _, _, hfopt, _⟩ := prepare_fields hb.built
  rw [f0_fopt] at hfopt
  have hflen : o.fopt.length = net.routes.length := by rw [hfopt]; simp
  obtain ⟨c0, hc0⟩ : ∃ c0, o.constrains o.fopt = .ok c0 := by
    rw [Optimizer.init, hb.built, py_ok_bind] at hi
    obtain ⟨c0, hc0, _⟩ := py_bind_eq_ok.1 hi
    exact ⟨c0, hc0⟩
  have hc0len := constrains_length hb hs hd hflen hc0
  refine ⟨⟨o.fopt, o.vrc, List.replicate o.fopt.length 0, List.replicate o.fopt.length ⊤, o.constrains,
    List.replicate c0.length ⊥, List.replicate c0.length 0⟩, ?_, hfopt, rfl, ?_, ?_⟩
  · rw [Optimizer.problem, hc0, py_ok_bind]
    rfl
  · rintro y ⟨hlow, _, v, hv, _⟩
    simp only at hlow hv
    rw [forall₂_replicate, hflen] at hlow
    obtain ⟨fr, hfr, hg⟩ := hb.vector hlow.1
    refine vrc_defined hb hs hlow.2 hfr hg ?_
    by_contra hcon
    rw [Optimizer.constrains, hfr, py_ok_bind, (C87_loads hb (hg.value hlow.2)).2 hcon] at hv
    cases hv
  · intro y
    constructor
    · rintro ⟨hlow, _, v, hv, _, hup⟩
      simp only at hlow hv hup
      rw [forall₂_replicate, hflen] at hlow
      rw [forall₂_replicate] at hup
      obtain ⟨fr, hfr, hg⟩ := hb.vector hlow.1
      have hcar : Carries o fr := by
        by_contra hcon
        rw [Optimizer.constrains, hfr, py_ok_bind, (C87_loads hb (hg.value hlow.2)).2 hcon] at hv
        cases hv
      obtain ⟨fr', hg', h⟩ := C57_constraints hb hs hd hk hlow.1 hlow.2
      have hsame := gives_unique hb.ids hg hg'
      subst hsame
      obtain ⟨t, c, ht, hc, _, hiff⟩ := h hcar
      rw [hv] at hc
      cases hc
      exact ⟨hlow.1, hlow.2, fr, hg, hcar, t, ht, hiff.1 hup.2⟩
    · rintro ⟨hlen, hy, fr, hg, hcar, t, ht, hroom⟩
      obtain ⟨fr', hg', h⟩ := C57_constraints hb hs hd hk hlen hy
      have hsame := gives_unique hb.ids hg hg'
      subst hsame
      obtain ⟨t', c, ht', hc, _, hiff⟩ := h hcar
      rw [ht] at ht'
      cases ht'
      have hclen := constrains_length hb hs hd hlen hc
      refine ⟨forall₂_replicate.2 ⟨hlen.trans hflen.symm, hy⟩, forall₂_replicate.2 ⟨hlen.trans hflen.symm, fun _ _ => le_top⟩,
        c, hc, forall₂_replicate.2 ⟨hclen.trans hc0len.symm, fun _ _ => bot_le⟩,
        forall₂_replicate.2 ⟨hclen.trans hc0len.symm, hiff.2 hroom⟩⟩

end Generic

section Examples

attribute [local instance] ratMath ratText

/-- trips along the first line only -/
def shortDemand : Demand ℚ := ⟨demoCity 3, [(1, [(0, 5)])], 5⟩

def shortOpt : Optimizer ℚ := ((Optimizer.prepare (demoCity 3) shortDemand demoFair busNet none).toOption).getD
  ⟨demoCity 3, shortDemand, demoFair, busNet, [], [], [], ⟨[], []⟩, []⟩

theorem shortBuilt : Built (demoCity 3) shortDemand demoFair busNet none shortOpt :=
  ⟨isOk_of_toOption _ (by decide +kernel), busBuilt.ids, busBuilt.adm, busBuilt.nodes, busBuilt.walk⟩

/-- C87: a line that nobody takes may stop: the objective has a value, although a line that the search could use does not run -/
example : Carries shortOpt [("a".toList, 2), ("c".toList, 0)] ∧ ¬ StillRuns busNet shortOpt [("a".toList, 2), ("c".toList, 0)] ∧
    Gives busNet [2, 0] [("a".toList, 2), ("c".toList, 0)] ∧ (shortOpt.vrc [2, 0]).isOk = true ∧
    shortOpt.vrc [0, 2] = .error .ZeroDivisionError := by
  refine ⟨?_, ?_, ⟨by decide +kernel, ?_⟩, by decide +kernel, by decide +kernel⟩
  · by_contra h
    have h1 := (C87_loads shortBuilt (fr := [("a".toList, 2), ("c".toList, 0)]) ?_).2 h
    · have h2 : (shortOpt.loads [("a".toList, 2), ("c".toList, 0)]).isOk = true := by decide +kernel
      rw [h1] at h2
      cases h2
    · intro id
      rw [Dict.getD, Dict.get?_cons, Dict.get?_cons]
      split
      · norm_num
      · split <;> norm_num
  · unfold StillRuns
    decide +kernel
  · intro i r hr
    have : ∀ i < 2, ∀ r ∈ busNet.routes[i]?, Dict.get? [("a".toList, (2 : ℚ)), ("c".toList, 0)] r.id = [2, 0][i]? := by
      decide +kernel
    refine this i ?_ r hr
    by_contra h
    rw [List.getElem?_eq_none (by change 2 ≤ i; omega)] at hr
    cases hr

/-- C87: the problem of the demonstration: the frequencies 2 and 3 are allowed, 2 and 0 are not -/
example : ∃ p, busOpt.problem = .ok p ∧ p.start = [1, 1] ∧ p.Allows [2, 3] ∧ ¬ p.Allows [2, 0] ∧ ¬ p.Allows [200, 3] := by
  have hi : Optimizer.init (demoCity 3) busDemand demoFair busNet none = .ok busOpt :=
    C57_constructor busBuilt demoShape.1 (by decide +kernel) (by decide +kernel) (by decide +kernel)
  obtain ⟨p, hp, hs, ho, hv, _⟩ := C87_problem busBuilt hi demoShape.1 (by decide +kernel) (by decide +kernel)
  have hobj : ∀ y, ¬ (busOpt.vrc y).isOk = true → ¬ p.Allows y := by
    intro y h ha
    obtain ⟨c, hc⟩ := hv y ha
    rw [ho] at hc
    rw [hc] at h
    exact h rfl
  have hparts : p.constraint = busOpt.constrains ∧ p.low = List.replicate 2 0 ∧ p.up = List.replicate 2 ⊤ ∧
      p.conLow = List.replicate 20 ⊥ ∧ p.conUp = List.replicate 20 0 := by
    rw [Optimizer.problem] at hp
    obtain ⟨c, hc, h⟩ := py_bind_eq_ok.1 hp
    have h2 : busOpt.fopt.length = 2 := by decide +kernel
    have h20 : c.length = 20 := by
      rw [constrains_length busBuilt demoShape.1 (by decide +kernel) (by decide +kernel) hc]
      decide +kernel
    cases h
    rw [h2, h20]
    exact ⟨rfl, rfl, rfl, rfl, rfl⟩
  obtain ⟨q1, q2, q3, q4, q5⟩ := hparts
  refine ⟨p, hp, by rw [hs]; decide +kernel, ?_, hobj _ (by decide +kernel), ?_⟩
  · have h1 : (busOpt.constrains [2, 3]).toOption.isSome = true := by decide +kernel
    refine ⟨by rw [q2, forall₂_replicate]; decide +kernel, ?_, _, by rw [q1]; exact isOk_of_toOption [] h1, ?_, ?_⟩
    · rw [q3, forall₂_replicate]
      exact ⟨rfl, fun _ _ => le_top⟩
    · rw [q4, forall₂_replicate]
      exact ⟨by decide +kernel, fun _ _ => bot_le⟩
    · rw [q5, forall₂_replicate]
      decide +kernel
  · rintro ⟨_, _, v, h1, _, h2⟩
    rw [q5, forall₂_replicate] at h2
    rw [q1] at h1
    have h3 : ((busOpt.constrains [200, 3]).toOption.getD []).all (fun c => decide (c ≤ 0)) = false := by decide +kernel
    rw [h1] at h3
    simp only [Except.toOption, Option.getD_some] at h3
    rw [List.all_eq_true.2 fun c hc => decide_eq_true (h2.2 c hc)] at h3
    cases h3

end Examples

end Sidermit
