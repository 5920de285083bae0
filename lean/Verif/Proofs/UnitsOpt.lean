import Verif.Proofs.UnitsUsers

/-!
The optimizer and its results in the second description (Spec/Units).
-/

set_option linter.unusedSectionVars false

namespace Sidermit

variable {K : Type} [Field K] [LinearOrder K] [IsStrictOrderedRing K] [PyMath K] {u : Terms K}

/-- two optimizers of the same problem -/
structure Terms.Same (u : Terms K) (o o' : Optimizer K) : Prop where
  graph : o'.graph = u.graph o.graph
  demand : o'.demand = u.demand o.demand
  pas : o'.pas = u.passenger o.pas
  net : o'.net = u.network o.net
  f : o'.f = u.frequencies o.f
  fopt : o'.fopt = o.fopt
  lines : o'.lines = o.lines.map u.lineId
  ext : o'.ext = u.ext o.ext
  pairs : List.Forall₂ u.Assigned o.pairs o'.pairs

theorem Same.size {o o' : Optimizer K} (ho : u.Same o o') : (allNodes o'.ext.nodes).length = (allNodes o.ext.nodes).length := by
  rw [ho.ext]
  show (allNodes (u.enodes o.ext.nodes)).length = _
  rw [allNodes_terms, List.length_map]

/-! ### frequencies -/

/-- the initial frequencies -/
def Terms.start (u : Terms K) (s : Start K) : Start K := ⟨u.frequencies s.f, s.fopt, s.lines.map u.lineId⟩

theorem f0_terms (h : u.Shape) (hf : u.Starts) (routes : List (Route K)) (f : Option (Dict Str K)) :
    f0 (routes.map u.route) (f.map u.frequencies) = u.start (f0 routes f) := by
  cases f with
  | none =>
    refine foldl_image (φ := u.start) (f := startStep) (f' := startStep) ?_ routes ⟨[], [], []⟩
    intro s r
    show (⟨(u.frequencies s.f).set (u.lineId r.id) (u.mode r.mode).fini, s.fopt ++ [(u.mode r.mode).fini], s.lines.map u.lineId ++ [u.lineId r.id]⟩ : Start K) = _
    rw [hf, frequencies_set h]
    simp only [Terms.start, startStep, List.map_append]
    rfl
  | some f =>
    refine foldl_image (φ := u.start) (f := startStepWith f) (f' := startStepWith (u.frequencies f)) ?_ routes ⟨[], [], []⟩
    intro s r
    show (⟨(u.frequencies s.f).set (u.lineId r.id) ((u.frequencies f).getD (u.lineId r.id) 0), s.fopt ++ [(u.mode r.mode).fini],
      s.lines.map u.lineId ++ [u.lineId r.id]⟩ : Start K) = _
    rw [hf, frequency_terms h, frequencies_set h]
    simp only [Terms.start, startStepWith, List.map_append]
    rfl

theorem foptToF_terms (h : u.Shape) (lines : List Str) (x : List K) :
    PyRel (fun a b => b = u.frequencies a) (foptToF lines x) (foptToF (lines.map u.lineId) x) := by
  unfold foptToF
  have hrefl : List.Forall₂ (fun a b => b = a) x.zipIdx x.zipIdx := by
    simp
  refine PyRel.foldlM ?_ hrefl rfl
  rintro f _ _ p rfl rfl
  unfold foptStep
  rw [List.getElem?_map]
  cases lines[p.2]? with
  | none => exact .error _
  | some id => exact .ok (frequencies_set h f id p.1)

theorem getK_terms (h : u.Shape) (d : Dict (LoadKey K) K) : getK (u.table d) = u.frequencies (getK d) := by
  unfold getK
  rw [mostLoaded_terms h]
  refine foldl_image (φ := u.frequencies) (s := []) ?_ (mostLoaded d)
  intro k p
  exact frequencies_set h k p.1 p.2

/-! ### costs and constraints -/

theorem loads_terms (h : u.Shape) {o o' : Optimizer K} (ho : u.Same o o') (f : Dict Str K) :
    PyRel (fun a b => b = u.loads a) (o.loads f) (o'.loads (u.frequencies f)) := by
  unfold Optimizer.loads
  rw [Same.size ho]
  exact getLoads_terms h _ f ho.pairs

theorem times_terms (h : u.Shape) {o o' : Optimizer K} (ho : u.Same o o') :
    PyRel (fun a b => b = u.frequencies a) (linesTravelTime o.net.routes o.graph.edgesDistance)
      (linesTravelTime o'.net.routes o'.graph.edgesDistance) := by
  rw [ho.net, ho.graph, edgesDistance_terms h]
  exact linesTravelTime_terms h o.net.routes _

theorem operators_terms (h : u.Bills) {o o' : Optimizer K} (ho : u.Same o o') (z v : Dict (LoadKey K) K) (f k : Dict Str K) :
    PyRel (fun a b => b = (u.money * a.1, u.cycles a.2)) (o.operatorsCost z v f k)
      (o'.operatorsCost (u.table z) (u.table v) (u.frequencies f) (u.frequencies k)) := by
  unfold Optimizer.operatorsCost
  refine PyRel.bind (times_terms h.toShape ho) ?_
  rintro times _ rfl
  have hr : o'.net.routes = o.net.routes.map u.route := by rw [ho.net]; rfl
  rw [hr, getCycleTime_terms h.toKeeps]
  refine .ok ?_
  show (Sidermit.operatorsCost (o.net.routes.map u.route) (u.frequencies (getCycleTime z v o.net.routes times).time) (u.frequencies f)
    (u.frequencies k), _) = _
  rw [operatorsCost_terms h]

theorem users_terms (h : u.Bills) {o o' : Optimizer K} (ho : u.Same o o') (z v : Dict (LoadKey K) K) (f : Dict Str K) :
    PyRel (fun a b => b = u.money * a) (usersCost (allNodes o.ext.nodes).length f o.ext o.pas z v o.pairs)
      (usersCost (allNodes o'.ext.nodes).length (u.frequencies f) o'.ext o'.pas (u.table z) (u.table v) o'.pairs) := by
  rw [Same.size ho, ho.ext, ho.pas]
  exact usersCost_terms h _ f o.ext o.pas z v ho.pairs

theorem infrastructure_terms (h : u.Bills) {o o' : Optimizer K} (ho : u.Same o o') (f : Dict Str K) :
    infrastructureCost o'.graph o'.net.routes o'.net.modes (u.frequencies f) =
      u.money * infrastructureCost o.graph o.net.routes o.net.modes f := by
  rw [ho.graph, ho.net]
  exact infrastructureCost_terms h o.graph o.net.routes o.net.modes f

theorem costs_terms (h : u.Bills) {o o' : Optimizer K} (ho : u.Same o o') (f : Dict Str K) (t : Loads K) :
    PyRel (fun a b => b = (u.money * a.1, u.money * a.2.1, u.money * a.2.2)) (o.costs f t) (o'.costs (u.frequencies f) (u.loads t)) := by
  unfold Optimizer.costs
  have hk : getK (u.loads t).load = u.frequencies (getK t.load) := getK_terms h.toShape t.load
  rw [hk]
  refine PyRel.bind (operators_terms h ho t.z t.v f (getK t.load)) ?_
  rintro co _ rfl
  refine PyRel.bind (users_terms h ho co.2.z co.2.v f) ?_
  rintro cu _ rfl
  refine .ok ?_
  rw [infrastructure_terms h ho]

theorem vrc_terms (h : u.Bills) {o o' : Optimizer K} (ho : u.Same o o') (x : List K) :
    PyRel (fun a b => b = u.money * a) (o.vrc x) (o'.vrc x) := by
  unfold Optimizer.vrc
  rw [ho.lines]
  refine PyRel.bind (foptToF_terms h.toShape o.lines x) ?_
  rintro f _ rfl
  refine PyRel.bind (loads_terms h.toShape ho f) ?_
  rintro t _ rfl
  refine PyRel.bind (costs_terms h ho f t) ?_
  rintro c _ rfl
  refine .ok ?_
  show u.money * c.1 + u.money * c.2.1 + u.money * c.2.2 = _
  ring

theorem constrains_terms (h : u.Keeps) {o o' : Optimizer K} (ho : u.Same o o') (x : List K) :
    PyRel (fun a b => b = a) (o.constrains x) (o'.constrains x) := by
  unfold Optimizer.constrains
  rw [ho.lines, ho.graph, ho.net]
  refine PyRel.bind (foptToF_terms h.toShape o.lines x) ?_
  rintro f _ rfl
  refine PyRel.bind (loads_terms h.toShape ho f) ?_
  rintro t _ rfl
  have hf : fmaxConstrains (u.graph o.graph) (u.network o.net).routes (u.network o.net).modes (u.frequencies f) =
    fmaxConstrains o.graph o.net.routes o.net.modes f := fmaxConstrains_terms h o.graph o.net.routes o.net.modes f
  rw [hf]
  refine PyRel.bind (PyRel.refl _) ?_
  rintro _ fs rfl
  refine .ok ?_
  show kConstrains (o.net.routes.map u.route) (mostLoaded (u.table t.load)) ++ fs = _
  rw [mostLoaded_terms h.toShape, kConstrains_terms h]

/-! ### building an optimizer -/

theorem forall₂_assigned {l l' : List (ODResult K)} (hl : List.Forall₂ u.Pair l l') :
    ∀ {s s' : List (Dict (StopNode K) K)}, List.Forall₂ (fun x y => y = u.shares x) s s' → List.Forall₂ u.Assigned (l.zip s) (l'.zip s') := by
  induction hl with
  | nil => intro s s' _; exact .nil
  | cons hp _ ih =>
    intro s s' hs
    cases hs with
    | nil => exact .nil
    | cons hq ht => exact .cons ⟨hp, hq⟩ (ih ht)

theorem prepare_terms (h : u.Shape) (hf : u.Starts) (g : Graph K) (d : Demand K) (pas : Passenger K) (net : Network K) (f : Option (Dict Str K)) :
    PyRel u.Same (Optimizer.prepare g d pas net f)
      (Optimizer.prepare (u.graph g) (u.demand d) (u.passenger pas) (u.network net) (f.map u.frequencies)) := by
  unfold Optimizer.prepare
  have h0 : f0 (u.network net).routes (f.map u.frequencies) = u.start (f0 net.routes f) := f0_terms h hf net.routes f
  simp only [h0]
  refine PyRel.bind (buildExtGraph_terms h hf g net.routes pas.pt (some (f0 net.routes f).f)) ?_
  rintro x _ rfl
  refine PyRel.bind (allHyperpaths_terms h x.nodes x.edges pas d.matrix) ?_
  intro res res' hr
  refine PyRel.bind (R := fun a b => b = u.len * a) ?_ ?_
  · unfold widthOf
    show PyRel _ _ (match g.p.map (u.len * ·) with
      | none => (.error .TypeError : Py K)
      | some p => .ok p)
    cases g.p with
    | none => exact .error _
    | some p => exact .ok rfl
  · rintro p _ rfl
    refine PyRel.bind (getAssignment_terms h hr p pas.va pas.pa pas.pv) ?_
    intro s s' hs
    exact .ok ⟨rfl, rfl, rfl, rfl, rfl, rfl, rfl, rfl, forall₂_assigned hr hs⟩

theorem init_terms (h : u.Keeps) (hf : u.Starts) (g : Graph K) (d : Demand K) (pas : Passenger K) (net : Network K) (f : Option (Dict Str K)) :
    PyRel u.Same (Optimizer.init g d pas net f)
      (Optimizer.init (u.graph g) (u.demand d) (u.passenger pas) (u.network net) (f.map u.frequencies)) := by
  unfold Optimizer.init
  refine PyRel.bind (prepare_terms h.toShape hf g d pas net f) ?_
  intro o o' ho
  rw [ho.fopt]
  refine PyRel.bind (constrains_terms h ho o.fopt) ?_
  rintro _ _ _
  exact .ok ho

/-! ### optimisation -/

/-- the results of the passes; the first element is not a result -/
def Terms.Lists (u : Terms K) (l l' : List (Res K)) : Prop :=
  ∃ x t, l = initialRes x :: t ∧ l' = initialRes x :: t.map u.result

theorem Terms.Lists.append {l l' : List (Res K)} (hl : u.Lists l l') (r : Res K) : u.Lists (l ++ [r]) (l' ++ [u.result r]) := by
  obtain ⟨x, t, rfl, rfl⟩ := hl
  exact ⟨x, t ++ [r], rfl, by simp⟩

theorem externalLoop_terms (h : u.Keeps) {make make' : Dict Str K → Py (Optimizer K)}
    (hm : ∀ f, PyRel u.Same (make f) (make' (u.frequencies f))) {solve solve' : Nat → Optimizer K → Py (Res K)}
    (hs : ∀ i o o', u.Same o o' → PyRel (fun r r' => r' = u.result r) (solve i o) (solve' i o')) (tol : K) (limit : Option Int) :
    ∀ (fuel i : Nat) {o o' : Optimizer K}, u.Same o o' → ∀ (pre new : List K) {l l' : List (Res K)}, u.Lists l l' →
      PyRel (fun a b => u.Lists a.list b.list) (externalLoop make solve tol limit fuel i o pre new l)
        (externalLoop make' solve' tol limit fuel i o' pre new l') := by
  intro fuel
  induction fuel with
  | zero => intros; exact .error _
  | succ n ih =>
    intro i o o' ho pre new l l' hl
    unfold externalLoop
    refine PyRel.bind (PyRel.refl _) ?_
    rintro _ b rfl
    split
    · exact .ok hl
    · rw [ho.lines]
      refine PyRel.bind (foptToF_terms h.toShape o.lines new) ?_
      rintro f _ rfl
      refine PyRel.bind (hm f) ?_
      intro o1 o1' ho1
      refine PyRel.bind (hs i o1 o1' ho1) ?_
      rintro r _ rfl
      exact ih (i + 1) ho1 new r.x (hl.append r)

theorem valid_terms (r : Res K) : (u.result r).valid = r.valid := rfl

theorem initialRes_valid (x : List K) : (initialRes x).valid = false := by
  unfold Res.valid initialRes
  simp

theorem betterResult_terms (h : u.Bills) {l l' : List (Res K)} (hl : u.Lists l l') :
    betterResult l' = (betterResult l).map u.result := by
  obtain ⟨x, t, rfl, rfl⟩ := hl
  unfold betterResult
  rw [List.filter_cons_of_neg (by rw [initialRes_valid]; simp), List.filter_cons_of_neg (by rw [initialRes_valid]; simp), List.filter_map]
  have hv : (Res.valid ∘ u.result : Res K → Bool) = Res.valid := rfl
  rw [hv]
  have := foldl_image (f := betterStep) (f' := betterStep)
    (φ := fun a : WithTop K × Option (Res K) => (a.1.map (u.money * ·), a.2.map u.result)) (ψ := u.result) (by
      rintro ⟨a, b⟩ r
      unfold betterStep
      have hlt : (u.result r).fn < WithTop.map (u.money * ·) a ↔ r.fn < a := by
        show WithTop.map (u.money * ·) r.fn < WithTop.map (u.money * ·) a ↔ _
        cases hr : r.fn with
        | top => cases a <;> simp
        | coe y =>
          cases a with
          | top => simp
          | coe z =>
            simp only [WithTop.map_coe, WithTop.coe_lt_coe]
            exact mul_lt_mul_iff_right₀ h.money
      simp only [hlt]
      split <;> rfl) (t.filter Res.valid) (⊤, none)
  exact congrArg Prod.snd this

theorem finishBest_terms (h : u.Bills) {l l' : List (Res K)} (hl : u.Lists l l') :
    PyRel (fun r r' => r' = u.result r) (finishBest l) (finishBest l') := by
  unfold finishBest
  rw [betterResult_terms h hl]
  cases betterResult l with
  | none => exact .error _
  | some r =>
    show PyRel _ (statusOptimization (some (⟨truncate r.x, r.success, r.status, r.message, r.viol, r.fn⟩ : Res K)) >>= _)
      (statusOptimization (some (⟨truncate r.x, r.success, r.status, r.message, r.viol, (u.result r).fn⟩ : Res K)) >>= _)
    have : statusOptimization (some (⟨truncate r.x, r.success, r.status, r.message, r.viol, (u.result r).fn⟩ : Res K)) =
      statusOptimization (some (⟨truncate r.x, r.success, r.status, r.message, r.viol, r.fn⟩ : Res K)) := rfl
    rw [this]
    refine PyRel.bind (PyRel.refl _) ?_
    rintro _ b rfl
    exact .ok rfl

theorem externalOptimization_terms (h : u.Bills) (hf : u.Starts) (g : Graph K) (d : Demand K) (pas : Passenger K) (net : Network K)
    (f : Option (Dict Str K)) (tol : K) (limit : Option Int) {solve solve' : Nat → Optimizer K → Py (Res K)}
    (hs : ∀ i o o', u.Same o o' → PyRel (fun r r' => r' = u.result r) (solve i o) (solve' i o')) (fuel : Nat) :
    PyRel (fun r r' => r' = u.result r) (externalOptimization g d pas net f tol limit solve fuel)
      (externalOptimization (u.graph g) (u.demand d) (u.passenger pas) (u.network net) (f.map u.frequencies) tol limit solve' fuel) := by
  unfold externalOptimization
  refine PyRel.bind (R := fun a b => u.Lists a.list b.list) ?_ fun a b hl => finishBest_terms h hl
  unfold externalResults
  refine PyRel.bind (init_terms h.toKeeps hf g d pas net f) ?_
  intro o o' ho
  refine PyRel.bind (hs 0 o o' ho) ?_
  rintro r _ rfl
  rw [ho.fopt]
  exact externalLoop_terms h.toKeeps (fun f => init_terms h.toKeeps hf g d pas net (some f)) hs tol limit fuel 1 ho o.fopt r.x ⟨o.fopt, [r], rfl, rfl⟩

theorem networkOptimization_terms (h : u.Bills) (hf : u.Starts) (g : Graph K) (d : Demand K) (pas : Passenger K) (net : Network K)
    (f : Option (Dict Str K)) (tol : K) (limit : Option Int) {solve solve' : Nat → Optimizer K → Py (Res K)}
    (hs : ∀ i o o', u.Same o o' → PyRel (fun r r' => r' = u.result r) (solve i o) (solve' i o')) (fuel : Nat) :
    PyRel (fun r r' => u.Same r.1 r'.1 ∧ r'.2 = u.result r.2) (networkOptimization g d pas net f tol limit solve fuel)
      (networkOptimization (u.graph g) (u.demand d) (u.passenger pas) (u.network net) (f.map u.frequencies) tol limit solve' fuel) := by
  unfold networkOptimization
  refine PyRel.bind (init_terms h.toKeeps hf g d pas net f) ?_
  intro o o' ho
  refine PyRel.bind (externalOptimization_terms h hf g d pas net f tol limit hs fuel) ?_
  rintro r _ rfl
  rw [ho.lines]
  refine PyRel.bind (foptToF_terms h.toShape o.lines r.x) ?_
  rintro _ _ _
  exact .ok ⟨ho, rfl⟩

/-! ### tables of results -/

theorem pyDiv_by (c a b : K) : PyRel (fun x y => y = c * x) (pyDiv a b) (pyDiv (c * a) b) := by
  unfold pyDiv
  split
  · exact .error _
  · exact .ok (mul_div_assoc _ _ _)

/-- the sections of a direction -/
def Terms.sections (u : Terms K) (l : List (Int × Int × K)) : List (Int × Int × K) :=
  l.map fun p => (u.nodeId p.1, u.nodeId p.2.1, p.2.2)

theorem sections_terms (nodes : List Int) (charges : List K) :
    sections (nodes.map u.nodeId) charges = u.sections (sections nodes charges) := by
  unfold sections Terms.sections
  rw [pairs_image, List.zipWith_map_left, List.map_zipWith]
  rfl

theorem stopAt_terms (h : u.Shape) (d : Dict (LoadKey K) K) (a : Str) (dir : Dir) (i : Int) :
    stopAt (u.table d) (u.lineId a) dir (u.nodeId i) = (stopAt d a dir i).map u.stop := by
  unfold stopAt
  rw [stopsIn_terms h]
  refine find?_image ?_ (stopsIn d a dir)
  intro s
  show decide ((u.node s.city.node).id = u.nodeId i) = decide (s.city.node.id = i)
  rw [h.id]
  exact decide_eq_decide.2 h.nodeIds.eq_iff

theorem boardAt_terms (h : u.Shape) (z : Dict (LoadKey K) K) (a : Str) (dir : Dir) (i : Int) :
    boardAt (u.table z) (u.lineId a) dir (u.nodeId i) = boardAt z a dir i := by
  unfold boardAt
  rw [stopAt_terms h]
  cases stopAt z a dir i with
  | none => rfl
  | some s => exact table_get h z a dir s

theorem loadsAlong_terms (h : u.Shape) (load : Dict (LoadKey K) K) (a : Str) (dir : Dir) (nodes : List Int) :
    loadsAlong (u.table load) (u.lineId a) dir (nodes.map u.nodeId) = loadsAlong load a dir nodes := by
  unfold loadsAlong
  rw [List.filterMap_map]
  congr 1
  funext i
  show (stopAt (u.table load) (u.lineId a) dir (u.nodeId i)).map _ = _
  rw [stopAt_terms h]
  cases stopAt load a dir i with
  | none => rfl
  | some s => exact congrArg some (table_get h load a dir s)

theorem lineCost_terms (h : u.Bills) (r : Route K) (x y z : K) :
    ((u.mode r.mode).co + (u.mode r.mode).c1 * x) * y * z = u.money * ((r.mode.co + r.mode.c1 * x) * y * z) := by
  rw [h.co, h.c1]
  ring

theorem circularCost_terms (h : u.Bills) (r : Route K) (cycle f k : Dict Str K) (b : K) :
    PyRel (fun x y => y = u.money * x) (circularCost r cycle f k b)
      (circularCost (u.route r) (u.frequencies cycle) (u.frequencies f) (u.frequencies k) b) := by
  unfold circularCost
  show PyRel _ _ (if b = 0 then .ok 0 else pyDiv (((u.mode r.mode).co + (u.mode r.mode).c1 * (u.frequencies k).getD (u.lineId r.id) 0) *
    (u.frequencies f).getD (u.lineId r.id) 0 * (u.frequencies cycle).getD (u.lineId r.id) 0) (b * (u.frequencies f).getD (u.lineId r.id) 0))
  rw [frequency_terms h.toShape, frequency_terms h.toShape, frequency_terms h.toShape, lineCost_terms h]
  split
  · exact .ok (mul_zero _).symm
  · exact pyDiv_by _ _ _

theorem circularRow_terms (h : u.Bills) (c : Cycles K) (load : Dict (LoadKey K) K) (f k : Dict Str K) (r : Route K) :
    PyRel (fun a b => b = u.row a) (circularRow c load f k r)
      (circularRow (u.cycles c) (u.table load) (u.frequencies f) (u.frequencies k) (u.route r)) := by
  unfold circularRow
  have ho : decide ((u.route r).nodesI.length > 0) = decide (r.nodesI.length > 0) := by
    show decide ((r.nodesI.map u.nodeId).length > 0) = _
    rw [List.length_map]
  simp only [ho]
  generalize decide (r.nodesI.length > 0) = out
  have hn : (if out = true then (u.route r).nodesI else (u.route r).nodesR) = (if out = true then r.nodesI else r.nodesR).map u.nodeId := by
    split <;> rfl
  rw [hn]
  generalize (if out = true then r.nodesI else r.nodesR) = nodes
  generalize hdir : (if out = true then Dir.I else Dir.R) = dir
  have hb : (nodes.map u.nodeId).foldl (fun b i => b + boardAt (u.cycles c).z (u.route r).id dir i) 0 =
      nodes.foldl (fun b i => b + boardAt c.z r.id dir i) 0 := by
    refine foldl_image (φ := fun y : K => y) ?_ nodes 0
    intro s i
    show s + boardAt (u.table c.z) (u.lineId r.id) dir (u.nodeId i) = _
    rw [boardAt_terms h.toShape]
  rw [hb]
  refine PyRel.bind (circularCost_terms h r c.time f k _) ?_
  rintro co _ rfl
  have hl : loadsAlong (u.table load) (u.route r).id dir (nodes.map u.nodeId) = loadsAlong load r.id dir nodes := loadsAlong_terms h.toShape load r.id dir nodes
  rw [hl, List.length_map]
  refine PyRel.bind (PyRel.refl _) ?_
  rintro _ m rfl
  refine PyRel.bind (PyRel.refl _) ?_
  rintro _ charges rfl
  have hd : (u.route r).mode.d = r.mode.d := h.d r.mode
  have hf : ∀ t : Dict Str K, (u.frequencies t).getD (u.route r).id 0 = t.getD r.id 0 := fun t => frequency_terms h.toShape t r.id
  have ht : (u.cycles c).time = u.frequencies c.time := rfl
  rw [ht]
  simp only [hf, hd]
  refine PyRel.bind (PyRel.refl _) ?_
  rintro _ per rfl
  refine .ok ?_
  rw [sections_terms]
  cases out <;> rfl

theorem chargeStep_terms (h : u.Shape) (z v : Dict (LoadKey K) K) (a : Str) (dir : Dir) (k : K) (s : Charged K) (i : Int) :
    chargeStep (u.table z) (u.table v) (u.lineId a) dir k s (u.nodeId i) = chargeStep z v a dir k s i := by
  unfold chargeStep
  rw [stopAt_terms h]
  cases stopAt z a dir i with
  | none => rfl
  | some st =>
    simp only [Option.map_some]
    rw [table_get h, table_get h]

theorem chargeFold_terms (h : u.Shape) (z v : Dict (LoadKey K) K) (a : Str) (dir : Dir) (k : K) (s : Charged K) (nodes : List Int) :
    PyRel (fun a b => b = a) (nodes.foldlM (chargeStep z v a dir k) s)
      ((nodes.map u.nodeId).foldlM (chargeStep (u.table z) (u.table v) (u.lineId a) dir k) s) := by
  refine PyRel.foldlM ?_ (forall₂_image u.nodeId nodes) rfl
  rintro _ s i _ rfl rfl
  rw [chargeStep_terms h]
  exact PyRel.refl _

theorem twoWayRow_terms (h : u.Bills) (c : Cycles K) (f k : Dict Str K) (r : Route K) :
    PyRel (fun a b => b = u.row a) (twoWayRow c f k r) (twoWayRow (u.cycles c) (u.frequencies f) (u.frequencies k) (u.route r)) := by
  unfold twoWayRow
  have hd : (u.route r).mode.d = r.mode.d := h.d r.mode
  have hf : ∀ t : Dict Str K, (u.frequencies t).getD (u.route r).id 0 = t.getD r.id 0 := fun t => frequency_terms h.toShape t r.id
  have ht : (u.cycles c).time = u.frequencies c.time := rfl
  rw [ht]
  simp only [hf, hd]
  refine PyRel.bind (chargeFold_terms h.toShape c.z c.v r.id .I _ _ r.nodesI) ?_
  rintro _ a rfl
  refine PyRel.bind (chargeFold_terms h.toShape c.z c.v r.id .R _ _ r.nodesR) ?_
  rintro _ b rfl
  have hc := lineCost_terms h r (k.getD r.id 0) (f.getD r.id 0) (c.time.getD r.id 0)
  refine PyRel.bind (R := fun x y => y = u.money * x) ?_ ?_
  · show PyRel _ _ (pyDiv (((u.mode r.mode).co + (u.mode r.mode).c1 * k.getD r.id 0) * f.getD r.id 0 * c.time.getD r.id 0) _)
    rw [hc]
    exact pyDiv_by _ _ _
  · rintro co _ rfl
    refine PyRel.bind (PyRel.refl _) ?_
    rintro _ per rfl
    refine .ok ?_
    show (⟨_, _, _, _, _, _, _, _, sections (r.nodesI.map u.nodeId) a.charges, sections (r.nodesR.map u.nodeId) b.charges⟩ : Row K) = _
    rw [sections_terms, sections_terms]
    rfl

theorem idleRow_terms (r : Route K) : idleRow (u.route r) = u.row (idleRow r) := by
  unfold idleRow
  show (⟨_, _, _, _, _, _, _, _, sections (r.nodesI.map u.nodeId) (List.replicate (r.nodesI.map u.nodeId).length 0),
    sections (r.nodesR.map u.nodeId) (List.replicate (r.nodesR.map u.nodeId).length 0)⟩ : Row K) = _
  rw [List.length_map, List.length_map, sections_terms, sections_terms]
  unfold Terms.row
  rw [mul_zero]
  rfl

theorem rowOf_terms (h : u.Bills) (c : Cycles K) (load : Dict (LoadKey K) K) (f k : Dict Str K) (r : Route K) :
    PyRel (fun a b => b = u.row a) (rowOf c load f k r)
      (rowOf (u.cycles c) (u.table load) (u.frequencies f) (u.frequencies k) (u.route r)) := by
  unfold rowOf
  have hf : (u.frequencies f).getD (u.route r).id 0 = f.getD r.id 0 := frequency_terms h.toShape f r.id
  have ht : (u.route r).type = r.type := rfl
  rw [hf, ht]
  split
  · split
    · exact circularRow_terms h c load f k r
    · exact twoWayRow_terms h c f k r
  · exact .ok (idleRow_terms r)

theorem lastIteration_terms (h : u.Keeps) (hf : u.Starts) {o o' : Optimizer K} (ho : u.Same o o') (r : Res K) :
    PyRel (fun a b => b.1 = u.frequencies a.1 ∧ u.Same a.2.1 b.2.1 ∧ b.2.2 = u.loads a.2.2) (o.lastIteration r)
      (o'.lastIteration (u.result r)) := by
  unfold Optimizer.lastIteration
  rw [ho.lines, ho.graph, ho.demand, ho.pas, ho.net]
  refine PyRel.bind (foptToF_terms h.toShape o.lines r.x) ?_
  rintro f _ rfl
  refine PyRel.bind (init_terms h hf o.graph o.demand o.pas o.net (some f)) ?_
  intro fin fin' hfin
  refine PyRel.bind (loads_terms h.toShape hfin f) ?_
  rintro t _ rfl
  exact .ok ⟨rfl, hfin, rfl⟩

theorem rows_terms (h : u.Bills) {o o' : Optimizer K} (ho : u.Same o o') (f : Dict Str K) (t : Loads K) :
    PyRel (fun a b => b = a.map u.row) (o.rows f t) (o'.rows (u.frequencies f) (u.loads t)) := by
  unfold Optimizer.rows
  refine PyRel.bind (times_terms h.toShape ho) ?_
  rintro times _ rfl
  have hr : o'.net.routes = o.net.routes.map u.route := by rw [ho.net]; rfl
  have hc := getCycleTime_terms h.toKeeps t.z t.v o.net.routes times
  have hk := getK_terms h.toShape t.load
  show PyRel _ _ (List.mapM (rowOf (getCycleTime (u.table t.z) (u.table t.v) o'.net.routes (u.frequencies times)) (u.table t.load)
    (u.frequencies f) (getK (u.table t.load))) o'.net.routes)
  rw [hr, hc, hk]
  refine (PyRel.mapM (S := fun a b => b = u.row a) ?_ (forall₂_image u.route o.net.routes)).mono fun a b hab => eq_of_forall₂_image hab
  rintro r _ rfl
  exact rowOf_terms h _ _ f _ r

theorem networkResults_terms (h : u.Bills) (hf : u.Starts) {o o' : Optimizer K} (ho : u.Same o o') (best : Option (Res K)) :
    PyRel (fun a b => b = a.map u.row) (o.networkResults best) (o'.networkResults (best.map u.result)) := by
  cases best with
  | none => exact .error _
  | some r =>
    refine PyRel.bind (lastIteration_terms h.toKeeps hf ho r) ?_
    rintro a b ⟨h1, h2, h3⟩
    rw [h1, h3]
    exact rows_terms h h2 a.1 a.2.2

/-! ### overall results -/

/-- the tables of the modes -/
def Terms.modeTable (u : Terms K) (t : ModeTable K) : ModeTable K :=
  ⟨Dict.via u.mode (fun y => y) t.fleet, Dict.via u.mode (fun y => y) t.lines, Dict.via u.mode (fun y => y) t.sizes⟩

theorem modeStep_terms (h : u.Shape) (cycle f k : Dict Str K) (t : ModeTable K) (r : Route K) :
    modeStep (u.frequencies cycle) (u.frequencies f) (u.frequencies k) (u.modeTable t) (u.route r) = u.modeTable (modeStep cycle f k t r) := by
  unfold modeStep
  have hd : (u.route r).mode.d = r.mode.d := h.d r.mode
  have hf : ∀ t : Dict Str K, (u.frequencies t).getD (u.route r).id 0 = t.getD r.id 0 := fun t => frequency_terms h t r.id
  have hm : (u.route r).mode = u.mode r.mode := rfl
  have g1 : (u.modeTable t).fleet.getD (u.mode r.mode) 0 = t.fleet.getD r.mode 0 :=
    Dict.getD_via (ψ := fun y : K => y) h.modes t.fleet r.mode 0
  have g2 : (u.modeTable t).lines.getD (u.mode r.mode) 0 = t.lines.getD r.mode 0 :=
    Dict.getD_via (ψ := fun y : Int => y) h.modes t.lines r.mode 0
  have g3 : (u.modeTable t).sizes.getD (u.mode r.mode) [] = t.sizes.getD r.mode [] :=
    Dict.getD_via (ψ := fun y : List K => y) h.modes t.sizes r.mode []
  simp only [hf, hd]
  rw [hm, g1, g2, g3]
  split
  · have s1 := Dict.set_via (ψ := fun y : K => y) h.modes t.fleet r.mode (t.fleet.getD r.mode 0 + f.getD r.id 0 * cycle.getD r.id 0)
    have s2 := Dict.set_via (ψ := fun y : Int => y) h.modes t.lines r.mode (t.lines.getD r.mode 0 + r.mode.d)
    have s3 := Dict.set_via (ψ := fun y : List K => y) h.modes t.sizes r.mode (t.sizes.getD r.mode [] ++ [k.getD r.id 0])
    unfold Terms.modeTable
    simp only
    rw [s1, s2, s3]
  · rfl

theorem averages_terms (h : u.Shape) (d : Dict (Mode K) (List K)) :
    PyRel (fun a b => b = Dict.via u.mode (fun y => y) a) (averages d) (averages (Dict.via u.mode (fun y => y) d)) := by
  unfold averages
  have hl : List.Forall₂ (fun (a b : Mode K × List K) => b = (u.mode a.1, a.2)) d (Dict.via u.mode (fun y => y) d) :=
    forall₂_image (fun a : Mode K × List K => (u.mode a.1, a.2)) d
  refine PyRel.foldlM ?_ hl rfl
  rintro s _ p _ rfl rfl
  refine PyRel.bind (PyRel.refl _) ?_
  rintro _ q rfl
  exact .ok (Dict.set_via (ψ := fun y : K => y) h.modes s p.1 q)

theorem overall_terms (h : u.Bills) {o o' : Optimizer K} (ho : u.Same o o') (f : Dict Str K) (t : Loads K) :
    PyRel (fun a b => b = u.overall a) (o.overall f t) (o'.overall (u.frequencies f) (u.loads t)) := by
  unfold Optimizer.overall
  have hk : getK (u.loads t).load = u.frequencies (getK t.load) := getK_terms h.toShape t.load
  rw [hk]
  refine PyRel.bind (operators_terms h ho t.z t.v f (getK t.load)) ?_
  rintro co _ rfl
  have hi := infrastructure_terms h ho f
  simp only [hi]
  refine PyRel.bind (users_terms h ho co.2.z co.2.v f) ?_
  rintro cu _ rfl
  refine PyRel.bind (R := fun a b => b = a) ?_ ?_
  · rw [Same.size ho, ho.ext, ho.pas]
    exact resourcesConsumer_terms h.toKeeps _ f o.ext o.pas.va co.2.z co.2.v ho.pairs
  rintro _ c rfl
  refine PyRel.bind (times_terms h.toShape ho) ?_
  rintro times _ rfl
  have hr : o'.net.routes = o.net.routes.map u.route := by rw [ho.net]; rfl
  have hc : getCycleTime (u.cycles co.2).z (u.cycles co.2).v o'.net.routes (u.frequencies times) = u.cycles (getCycleTime co.2.z co.2.v o.net.routes times) := by
    rw [hr]
    exact getCycleTime_terms h.toKeeps co.2.z co.2.v o.net.routes times
  have hm : o'.net.routes.foldl (modeStep (u.cycles (getCycleTime co.2.z co.2.v o.net.routes times)).time (u.frequencies f) (u.frequencies (getK t.load)))
      ⟨[], [], []⟩ = u.modeTable (o.net.routes.foldl (modeStep (getCycleTime co.2.z co.2.v o.net.routes times).time f (getK t.load)) ⟨[], [], []⟩) := by
    rw [hr]
    exact foldl_image (φ := u.modeTable) (fun s r => modeStep_terms h.toShape _ f _ s r) o.net.routes ⟨[], [], []⟩
  have hn : o'.demand.total = o.demand.total := by rw [ho.demand]; rfl
  simp only [hc, hm, hn]
  refine PyRel.bind (averages_terms h.toShape _) ?_
  rintro sizes _ rfl
  have hv : u.money * co.1 + u.money * infrastructureCost o.graph o.net.routes o.net.modes f + u.money * cu =
      u.money * (co.1 + infrastructureCost o.graph o.net.routes o.net.modes f + cu) := by ring
  rw [hv]
  refine PyRel.bind (pyDiv_by _ _ _) ?_
  rintro vrc _ rfl
  refine PyRel.bind (pyDiv_by _ _ _) ?_
  rintro x1 _ rfl
  refine PyRel.bind (pyDiv_by _ _ _) ?_
  rintro x2 _ rfl
  refine PyRel.bind (pyDiv_by _ _ _) ?_
  rintro x3 _ rfl
  refine PyRel.bind (PyRel.refl _) ?_
  rintro _ y1 rfl
  refine PyRel.bind (PyRel.refl _) ?_
  rintro _ y2 rfl
  refine PyRel.bind (PyRel.refl _) ?_
  rintro _ y3 rfl
  refine PyRel.bind (PyRel.refl _) ?_
  rintro _ y4 rfl
  exact .ok rfl

theorem overallResults_terms (h : u.Bills) (hf : u.Starts) {o o' : Optimizer K} (ho : u.Same o o') (best : Option (Res K)) :
    PyRel (fun a b => b = u.overall a) (o.overallResults best) (o'.overallResults (best.map u.result)) := by
  cases best with
  | none => exact .error _
  | some r =>
    refine PyRel.bind (lastIteration_terms h.toKeeps hf ho r) ?_
    rintro a b ⟨h1, h2, h3⟩
    rw [h1, h3]
    exact overall_terms h h2 a.1 a.2.2

end Sidermit
