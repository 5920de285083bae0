import Verif.Spec.Later
import Verif.Props.Assigned
import Verif.Proofs.UnitsOpt

/-!
C98: what an optimizer sees of assignments to modes after it was built.
-/

set_option linter.unusedSectionVars false

namespace Sidermit

section Generic

variable {K : Type} [Field K] [LinearOrder K] [IsStrictOrderedRing K] [PyMath K]

variable {g : Graph K} {d : Demand K} {pas : Passenger K} {f : Option (Dict Str K)} {o : Optimizer K}

/-! ## the description by terms -/

/-- other values of the modes as another description of the same things -/
def modeTerms (φ : Mode K → Mode K) : Terms K := ⟨id, φ, id, id, 1, 1⟩

section

variable (φ : Mode K → Mode K)

theorem modeTerms_graph (g : Graph K) : (modeTerms φ).graph g = g := by
  have h1 : ∀ a : Option K, a.map ((1 : K) * ·) = a := fun a => by cases a <;> simp
  show { g with nodes := g.nodes.map id, l := g.l.map ((1 : K) * ·), p := g.p.map ((1 : K) * ·) } = g
  rw [h1, h1, List.map_id]

theorem modeTerms_frequencies (f : Dict Str K) : (modeTerms φ).frequencies f = f := by
  show f.map (fun p => (id p.1, p.2)) = f
  simp

theorem modeTerms_demand (d : Demand K) : (modeTerms φ).demand d = d := by
  show (⟨(modeTerms φ).graph d.graph, d.matrix.map fun p => (id p.1, p.2.map fun q => (id q.1, q.2)), d.total⟩ : Demand K) = d
  rw [modeTerms_graph]
  simp

theorem modeTerms_passenger (p : Passenger K) : (modeTerms φ).passenger p = p := by
  show (⟨1 * p.va, p.pv, p.pw, p.pa, p.pt, 1 * p.spv, 1 * p.spw, 1 * p.spa, p.spt⟩ : Passenger K) = p
  simp only [one_mul]

theorem modeTerms_route (r : Route K) : (modeTerms φ).route r = { r with mode := φ r.mode } := by
  show (⟨id r.id, φ r.mode, r.nodesI.map id, r.nodesR.map id, r.stopsI.map id, r.stopsR.map id, r.type⟩ : Route K) = _
  simp only [List.map_id]
  rfl

theorem modeTerms_network (n : Network K) : (modeTerms φ).network n = n.mapModes φ := by
  show (⟨(modeTerms φ).graph n.graph, n.routes.map (modeTerms φ).route, n.routeIds.map id, n.modes.map φ⟩ : Network K) = _
  rw [modeTerms_graph, List.map_id, funext (modeTerms_route φ)]
  rfl

theorem seen_onLine (y : RouteNode K) : (modeTerms φ).onLine y = y.seen φ := by
  unfold Terms.onLine
  rw [modeTerms_route]
  rfl

theorem seen_enode (x : ENode K) : (modeTerms φ).enode x = x.seen φ := by
  cases x with
  | city y => rfl
  | stop y => rfl
  | route y => exact congrArg ENode.route (seen_onLine φ y)

theorem seen_edge (e : EEdge K) : (modeTerms φ).edge e = e.seen φ := by
  unfold EEdge.seen Terms.edge
  rw [seen_enode, seen_enode]

theorem seen_ext (x : ExtGraph K) : (modeTerms φ).ext x = x.seen φ := by
  unfold ExtGraph.seen Terms.ext
  rw [funext (seen_edge φ)]
  congr 1
  unfold Terms.enodes Dict.via Terms.entry
  rw [funext (seen_onLine φ)]
  rfl

end

theorem seen_inverse {φ ψ : Mode K → Mode K} (h : ∀ m, φ (ψ m) = m) (x : ENode K) : (x.seen ψ).seen φ = x := by
  cases x <;> simp [ENode.seen, StopNode.seen, RouteNode.seen, h]

/-- what is described by other values of the modes is determined if these can be undone -/
theorem same_seen {φ ψ : Mode K → Mode K} (h : ∀ m, φ (ψ m) = m) {n : Optimizer K} (hs : (modeTerms φ).Same o n) : n = o.seen φ ψ := by
  have hp : n.pairs = (o.seen φ ψ).pairs := by
    show n.pairs = o.pairs.map _
    have hall := hs.pairs
    generalize o.pairs = a at hall ⊢
    generalize n.pairs = b at hall ⊢
    induction hall with
    | nil => rfl
    | @cons p q l l' hpq _ ih =>
      rw [List.map_cons, ih]
      congr 1
      obtain ⟨⟨h1, h2, h3, h4, h5⟩, h6⟩ := hpq
      obtain ⟨⟨qo, qd, ⟨qs, ql, qf⟩, qp, qv⟩, qsh⟩ := q
      dsimp only at h1 h2 h3 h4 h5 h6
      subst h1 h2 h4 h5 h6
      have e1 : qs = fun x => (p.1.res.succ (x.seen ψ)).map (EEdge.seen φ) := by
        funext x
        have := h3.succ (x.seen ψ)
        rw [seen_enode, seen_inverse h, funext (seen_edge φ)] at this
        exact this
      have e2 : ql = fun x => p.1.res.label (x.seen ψ) := by
        funext x
        have := h3.label (x.seen ψ)
        rw [seen_enode, seen_inverse h] at this
        exact this
      have e3 : qf = fun x => p.1.res.freq (x.seen ψ) := by
        funext x
        have := h3.freq (x.seen ψ)
        rw [seen_enode, seen_inverse h] at this
        exact this
      subst e1 e2 e3
      have e4 : (modeTerms φ).paths p.1.paths = p.1.paths.map fun q => (q.1.seen φ, q.2.map fun l => l.map (ENode.seen φ)) := by
        unfold Terms.paths
        rw [funext (seen_enode φ)]
        rfl
      rw [e4]
      rfl
  obtain ⟨h1, h2, h3, h4, h5, h6, h7, h8, _⟩ := hs
  obtain ⟨ng, nd, np, nn, nf, nfo, nl, ne, npr⟩ := n
  dsimp only at h1 h2 h3 h4 h5 h6 h7 h8 hp
  rw [h1, h2, h3, h4, h5, h6, h7, h8, hp, modeTerms_graph, modeTerms_demand, modeTerms_passenger, modeTerms_network, modeTerms_frequencies,
    seen_ext]
  show Optimizer.mk _ _ _ _ _ _ (o.lines.map id) _ _ = _
  rw [List.map_id]
  rfl

/-- what the constructor reads of a mode is the same -/
structure Mode.Alike (m m' : Mode K) : Prop where
  name : m'.name = m.name
  v : m'.v = m.v
  theta : m'.theta = m.theta
  tat : m'.tat = m.tat
  d : m'.d = m.d
  fini : m'.fini = m.fini
  oid : m'.oid = m.oid

theorem Mode.Alike.refl (m : Mode K) : m.Alike m := ⟨rfl, rfl, rfl, rfl, rfl, rfl, rfl⟩

theorem Mode.Alike.symm {m m' : Mode K} (h : m.Alike m') : m'.Alike m :=
  ⟨h.name.symm, h.v.symm, h.theta.symm, h.tat.symm, h.d.symm, h.fini.symm, h.oid.symm⟩

theorem Mode.Alike.trans {m m' m'' : Mode K} (h : m.Alike m') (h' : m'.Alike m'') : m.Alike m'' :=
  ⟨h'.name.trans h.name, h'.v.trans h.v, h'.theta.trans h.theta, h'.tat.trans h.tat, h'.d.trans h.d, h'.fini.trans h.fini, h'.oid.trans h.oid⟩

/-- the modes differ in what the constructor does not read -/
structure OnlyLate (φ ψ : Mode K → Mode K) : Prop where
  left : ∀ m, ψ (φ m) = m
  right : ∀ m, φ (ψ m) = m
  same : ∀ m : Mode K, m.Alike (φ m)

theorem onlyLate_shape {φ ψ : Mode K → Mode K} (h : OnlyLate φ ψ) : (modeTerms φ).Shape where
  len := one_pos
  nodes := Function.injective_id
  modes := Function.LeftInverse.injective h.left
  nodeIds := Function.injective_id
  lineIds := Function.injective_id
  id := fun _ => rfl
  width := fun _ => (one_mul _).symm
  apart := fun _ _ => (one_mul _).symm
  name := fun m m' => by
    show (φ m).name = (φ m').name ↔ _
    rw [(h.same m).name, (h.same m').name]
  v := fun m => (h.same m).v.trans (one_mul _).symm
  theta := fun m => (h.same m).theta
  tat := fun m => (h.same m).tat
  d := fun m => (h.same m).d

/-- the constraints can be evaluated in both or in none -/
theorem constrains_alike {u : Terms K} (h : u.Shape) {o o' : Optimizer K} (ho : u.Same o o') (x : List K) :
    PyRel (fun _ _ => True) (o.constrains x) (o'.constrains x) := by
  unfold Optimizer.constrains
  rw [ho.lines, ho.graph, ho.net]
  refine PyRel.bind (foptToF_terms h o.lines x) ?_
  rintro f _ rfl
  refine PyRel.bind (loads_terms h ho f) ?_
  rintro t _ rfl
  refine PyRel.bind (R := fun _ _ => True) ?_ fun _ _ _ => .ok trivial
  show PyRel _ (fmaxConstrains o.graph o.net.routes o.net.modes f)
    (fmaxConstrains (u.graph o.graph) (o.net.routes.map u.route) (o.net.modes.map u.mode) (u.frequencies f))
  unfold fmaxConstrains
  rw [edgeIds_terms h]
  refine PyRel.bind (PyRel.mapM (S := fun _ _ => True) ?_ (forall₂_image u.ends _)) fun _ _ _ => .ok trivial
  rintro e _ rfl
  unfold fmaxEdge
  refine (PyRel.mapM (S := fun _ _ => True) ?_ (forall₂_image u.mode o.net.modes)).mono fun _ _ _ => trivial
  rintro m _ rfl
  unfold fmaxEntry pyDiv
  rw [h.d]
  split
  · exact .error _
  · exact .ok trivial

theorem init_seen {φ ψ : Mode K → Mode K} (h : OnlyLate φ ψ) (g : Graph K) (d : Demand K) (pas : Passenger K) (net : Network K)
    (f : Option (Dict Str K)) :
    Optimizer.init g d pas (net.mapModes φ) f = (Optimizer.init g d pas net f).map (Optimizer.seen φ ψ) := by
  have hi := prepare_terms (onlyLate_shape h) (fun m => (h.same m).fini) g d pas net f
  have hf : f.map (modeTerms φ).frequencies = f := by
    rw [funext (modeTerms_frequencies φ)]
    cases f <;> rfl
  rw [modeTerms_graph, modeTerms_demand, modeTerms_passenger, modeTerms_network, hf] at hi
  refine PyRel.to_map ?_
  unfold Optimizer.init
  refine PyRel.bind hi ?_
  intro o o' ho
  rw [ho.fopt]
  refine PyRel.bind (constrains_alike (onlyLate_shape h) ho o.fopt) ?_
  rintro _ _ _
  exact .ok (same_seen h.right ho)

/-! ## assignments of values that are read late -/

theorem assigned_alike (oid : Nat) {a : ModeAssign K} (ha : a.Late) (m : Mode K) : m.Alike (assigned oid a m) := by
  unfold assigned
  split
  · cases a <;> first | exact absurd ha id | skip
    all_goals
      unfold Mode.assign store
      dsimp only
      split <;> exact ⟨rfl, rfl, rfl, rfl, rfl, rfl, rfl⟩
  · exact .refl m

theorem assignAll_alike (l : List (Nat × ModeAssign K)) (hl : ∀ p ∈ l, p.2.Late) : ∀ (s : Fleet K) (i : Nat),
    (s.objects i).Alike ((s.assignAll l).objects i) := by
  induction l with
  | nil => exact fun s i => .refl _
  | cons p t ih =>
    intro s i
    exact (assigned_alike p.1 (hl p (by simp)) (s.objects i)).trans
      (ih (fun q hq => hl q (List.mem_cons_of_mem _ hq)) ((FleetStep.assign p.1 p.2).run s).1 i)

theorem turn_turn {s s' : Fleet K} (h : ∀ i, (s.objects i).oid = i) (h' : ∀ i, (s'.objects i).oid = i) (m : Mode K) :
    s.turn s' (s.turn s' m) = m := by
  by_cases h1 : m = s.objects m.oid
  · have e1 : s.turn s' m = s'.objects m.oid := if_pos h1
    rw [e1]
    unfold Fleet.turn
    rw [h']
    by_cases h2 : s'.objects m.oid = s.objects m.oid
    · rw [if_pos h2, h2, ← h1]
    · rw [if_neg h2, if_pos rfl, ← h1]
  · by_cases h2 : m = s'.objects m.oid
    · have e1 : s.turn s' m = s.objects m.oid := (if_neg h1).trans (if_pos h2)
      rw [e1]
      unfold Fleet.turn
      rw [h, if_pos rfl, ← h2]
    · have e1 : s.turn s' m = m := (if_neg h1).trans (if_neg h2)
      rw [e1, e1]

theorem turn_late {s s' : Fleet K} (h : ∀ i, (s.objects i).oid = i) (hp : ∀ i, (s.objects i).Alike (s'.objects i)) :
    OnlyLate (s.turn s') (s.turn s') := by
  have h' : ∀ i, (s'.objects i).oid = i := fun i => (hp i).oid.trans (h i)
  refine ⟨turn_turn h h', turn_turn h h', fun m => ?_⟩
  unfold Fleet.turn
  split
  · rename_i h1
    have := hp m.oid
    rw [← h1] at this
    exact this
  · split
    · rename_i h1
      have := hp m.oid
      rw [← h1] at this
      exact this.symm
    · exact .refl m

theorem assignAll_net (l : List (Nat × ModeAssign K)) : ∀ (s : Fleet K),
    ∃ φ : Mode K → Mode K, (s.assignAll l).net = s.net.mapModes φ ∧ ∀ i, (s.assignAll l).objects i = φ (s.objects i) := by
  induction l with
  | nil => exact fun s => ⟨id, by simp [Fleet.assignAll, Network.mapModes], fun i => rfl⟩
  | cons p t ih =>
    intro s
    obtain ⟨φ, h1, h2⟩ := ih ((FleetStep.assign p.1 p.2).run s).1
    refine ⟨φ ∘ assigned p.1 p.2, h1.trans ?_, h2⟩
    simp [FleetStep.run, Network.mapModes, Function.comp_def]

/-- the network after the assignments has the present values -/
theorem turn_net {P : FleetStep K → Prop} {s : Fleet K} (h : Fleet.Reachable g P s) (l : List (Nat × ModeAssign K)) :
    (s.assignAll l).net = s.net.mapModes (s.turn (s.assignAll l)) := by
  obtain ⟨h1, h2, h3, _⟩ := C97_lines_show_the_present_values h
  obtain ⟨φ, e1, e2⟩ := assignAll_net l s
  have key : ∀ m : Mode K, m = s.objects m.oid → φ m = s.turn (s.assignAll l) m := by
    intro m hm
    have : s.turn (s.assignAll l) m = (s.assignAll l).objects m.oid := if_pos hm
    rw [this, e2, ← hm]
  rw [e1]
  unfold Network.mapModes
  congr 1
  · apply List.map_congr_left
    intro r hr
    rw [key _ (h1 r hr)]
  · exact List.map_congr_left fun m hm => key m (h2 m hm)

/-- **C98**: prices, times to board, the order of boarding and alighting and limits of modes that are assigned after an optimizer was
built, accepted or not, make it the very optimizer that would be built now (and where none could be built, none can be now): all that it
gives, costs, constraints and tables, is the same. -/
theorem C98_late_values_are_read {P : FleetStep K → Prop} {s : Fleet K} (h : Fleet.Reachable g P s) (l : List (Nat × ModeAssign K))
    (hl : ∀ p ∈ l, p.2.Late) :
    (∀ i, s.turn (s.assignAll l) (s.objects i) = (s.assignAll l).objects i) ∧
    Optimizer.init g d pas (s.assignAll l).net f =
      (Optimizer.init g d pas s.net f).map (Optimizer.seen (s.turn (s.assignAll l)) (s.turn (s.assignAll l))) := by
  have h3 : ∀ i, (s.objects i).oid = i := fun i => ((C97_lines_show_the_present_values h).2.2.1 i).1
  refine ⟨fun i => ?_, ?_⟩
  · unfold Fleet.turn
    rw [h3, if_pos rfl]
  · rw [turn_net h l]
    exact init_seen (turn_late h3 (assignAll_alike l hl s)) g d pas s.net f

/-! ## assignments of initial frequencies -/

/-- all values but the initial frequency are the same -/
def Mode.ButStart (m m' : Mode K) : Prop := m' = { m with fini := m'.fini }

theorem Mode.ButStart.refl (m : Mode K) : m.ButStart m := rfl

theorem Mode.ButStart.symm {m m' : Mode K} (h : m.ButStart m') : m'.ButStart m := by
  unfold Mode.ButStart at h ⊢
  rw [h]

theorem Mode.ButStart.trans {m m' m'' : Mode K} (h : m.ButStart m') (h' : m'.ButStart m'') : m.ButStart m'' := by
  unfold Mode.ButStart at h h' ⊢
  rw [h', h]

theorem assigned_butStart (oid : Nat) {a : ModeAssign K} (ha : a.Initial) (m : Mode K) : m.ButStart (assigned oid a m) := by
  unfold assigned
  split
  · cases a <;> first | exact absurd ha id | skip
    unfold Mode.assign store
    dsimp only
    split <;> rfl
  · exact .refl m

theorem assignAll_butStart (l : List (Nat × ModeAssign K)) (hl : ∀ p ∈ l, p.2.Initial) : ∀ (s : Fleet K) (i : Nat),
    (s.objects i).ButStart ((s.assignAll l).objects i) := by
  induction l with
  | nil => exact fun s i => .refl _
  | cons p t ih =>
    intro s i
    exact (assigned_butStart p.1 (hl p (by simp)) (s.objects i)).trans
      (ih (fun q hq => hl q (List.mem_cons_of_mem _ hq)) ((FleetStep.assign p.1 p.2).run s).1 i)

theorem turn_butStart {s s' : Fleet K} (hp : ∀ i, (s.objects i).ButStart (s'.objects i)) (m : Mode K) : m.ButStart (s.turn s' m) := by
  have h0 := hp m.oid
  by_cases h1 : m = s.objects m.oid
  · have e : s.turn s' m = s'.objects m.oid := if_pos h1
    rw [← h1] at h0
    rw [e]
    exact h0
  · by_cases h2 : m = s'.objects m.oid
    · have e : s.turn s' m = s.objects m.oid := (if_neg h1).trans (if_pos h2)
      rw [← h2] at h0
      rw [e]
      exact h0.symm
    · have e : s.turn s' m = m := (if_neg h1).trans (if_neg h2)
      rw [e]
      exact .refl m

theorem butStart_bills {φ ψ : Mode K → Mode K} (hψ : ∀ m, ψ (φ m) = m) (h : ∀ m, Mode.ButStart m (φ m)) : (modeTerms φ).Bills where
  len := one_pos
  nodes := Function.injective_id
  modes := Function.LeftInverse.injective hψ
  nodeIds := Function.injective_id
  lineIds := Function.injective_id
  id := fun _ => rfl
  width := fun _ => (one_mul _).symm
  apart := fun _ _ => (one_mul _).symm
  name := fun m m' => by
    show (φ m).name = (φ m').name ↔ _
    rw [h m, h m']
  v := fun m => (congrArg Mode.v (h m)).trans (one_mul _).symm
  theta := fun m => (congrArg Mode.theta (h m)).trans rfl
  tat := fun m => (congrArg Mode.tat (h m)).trans rfl
  d := fun m => (congrArg Mode.d (h m)).trans rfl
  bya := fun m => (congrArg Mode.bya (h m)).trans rfl
  t := fun m => (congrArg Mode.t (h m)).trans rfl
  fmax := fun m => (congrArg Mode.fmax (h m)).trans rfl
  kmax := fun m => (congrArg Mode.kmax (h m)).trans rfl
  money := one_pos
  co := fun m => (congrArg Mode.co (h m)).trans (one_mul _).symm
  c1 := fun m => (congrArg Mode.c1 (h m)).trans (one_mul _).symm
  c2 := fun m => (congrArg Mode.c2 (h m)).trans (by show m.c2 = 1 / 1 * m.c2; rw [div_one, one_mul])

/-- what is seen of an optimizer with other values of the modes is the optimizer in the other description -/
theorem seen_same {φ ψ : Mode K → Mode K} (h : ∀ m, ψ (φ m) = m) (o : Optimizer K) : (modeTerms φ).Same o (o.seen φ ψ) where
  graph := (modeTerms_graph φ _).symm
  demand := (modeTerms_demand φ _).symm
  pas := (modeTerms_passenger φ _).symm
  net := (modeTerms_network φ _).symm
  f := (modeTerms_frequencies φ _).symm
  fopt := rfl
  lines := (List.map_id _).symm
  ext := (seen_ext φ _).symm
  pairs := by
    show List.Forall₂ _ o.pairs (o.pairs.map _)
    generalize o.pairs = l
    induction l with
    | nil => exact .nil
    | cons p t ih =>
      refine .cons ⟨⟨rfl, rfl, ⟨fun x => ?_, fun x => ?_, fun x => ?_⟩, ?_, rfl⟩, rfl⟩ ih
      · rw [seen_enode, funext (seen_edge φ)]
        show (p.1.res.succ ((x.seen φ).seen ψ)).map _ = _
        rw [seen_inverse h]
      · rw [seen_enode]
        show p.1.res.label ((x.seen φ).seen ψ) = _
        rw [seen_inverse h]
      · rw [seen_enode]
        show p.1.res.freq ((x.seen φ).seen ψ) = _
        rw [seen_inverse h]
      · unfold Terms.paths
        rw [funext (seen_enode φ)]
        rfl

/-- **C98**: initial frequencies that are assigned after an optimizer was built are not seen by it: its cost and its constraints are the
same at all frequencies, and raise the same exceptions, and it starts from the initial frequencies as they were. -/
theorem C98_initial_frequencies_are_not_seen {P : FleetStep K → Prop} {s : Fleet K} (h : Fleet.Reachable g P s)
    (l : List (Nat × ModeAssign K)) (hl : ∀ p ∈ l, p.2.Initial) (o : Optimizer K) :
    (∀ x, (o.seen (s.turn (s.assignAll l)) (s.turn (s.assignAll l))).vrc x = o.vrc x) ∧
    (∀ x, (o.seen (s.turn (s.assignAll l)) (s.turn (s.assignAll l))).constrains x = o.constrains x) ∧
    (o.seen (s.turn (s.assignAll l)) (s.turn (s.assignAll l))).fopt = o.fopt := by
  have h3 : ∀ i, (s.objects i).oid = i := fun i => ((C97_lines_show_the_present_values h).2.2.1 i).1
  have hp := assignAll_butStart l hl s
  have h4 : ∀ i, ((s.assignAll l).objects i).oid = i := fun i => (congrArg Mode.oid (hp i)).trans (h3 i)
  have hb := butStart_bills (turn_turn h3 h4) (turn_butStart hp)
  have hs := seen_same (turn_turn h3 h4) o
  refine ⟨fun x => ?_, fun x => PyRel.to_eq (constrains_terms hb.toKeeps hs x), rfl⟩
  refine PyRel.to_eq ((vrc_terms hb hs x).mono fun a b e => ?_)
  rw [e]
  exact one_mul a

end Generic

/-! ## Examples -/

section Examples

attribute [local instance] ratMath ratText

/-- the costs of operators, infrastructure and users -/
def Optimizer.threeCosts (o : Optimizer ℚ) (x : List ℚ) : Option (ℚ × ℚ × ℚ) :=
  (do
    let f ← foptToF o.lines x
    let t ← o.loads f
    o.costs f t : Py (ℚ × ℚ × ℚ)).toOption

/-- the optimizer of the two lines of buses, with the speed set to 40 km/h before it is built -/
def fastOpt : Optimizer ℚ :=
  ((Optimizer.init (demoCity 3) busDemand demoFair (busNet.mapModes (assigned 1 (.v (some 40)))) none).toOption).getD busOpt

/-- **C98**: speeds that are assigned later are seen by the vehicles only.  The buses run at 20 km/h when the optimizer is built and at 40
km/h afterwards: the cost of the operators is that of the new speed, the cost of the users that of the old one.  No speed gives such a
cost. -/
theorem C98_speed_is_seen_by_vehicles_only :
    busOpt.threeCosts [2, 3] = some (23062/225, 7/2, 37181/675) ∧
    (busOpt.seen (assigned 1 (.v (some 40))) (assigned 1 (.v (some 20)))).threeCosts [2, 3] = some (11587/225, 7/2, 37181/675) ∧
    (Optimizer.init (demoCity 3) busDemand demoFair (busNet.mapModes (assigned 1 (.v (some 40)))) none).isOk = true ∧
    fastOpt.threeCosts [2, 3] = some (11587/225, 7/2, 60187/1350) ∧
    (∀ m ∈ busNet.modes, assigned 1 (.v (some 20)) (assigned 1 (.v (some 40)) m) = m) := by decide +kernel

/-- five trips from the periphery to the centre, for the buses and metros of `demoFleet` -/
def fewTrips : Demand ℚ := ⟨demoCity 3, [(1, [(0, 5)])], 5⟩

def fleetOpt : Optimizer ℚ := ((Optimizer.init (demoCity 3) fewTrips demoFair demoFleet.net none).toOption).getD busOpt

/-- two prices and the time to board are assigned, a fourth assignment is refused -/
def newValues : List (Nat × ModeAssign ℚ) := [(1, .co (some 20)), (2, .c2 (some 3)), (1, .t (some 5)), (2, .c1 (some (-1)))]

/-- the hypotheses of C98_late_values_are_read hold, and the cost does change -/
example : (∀ p ∈ newValues, p.2.Late) := by
  intro p hp
  simp only [newValues, List.mem_cons, List.not_mem_nil, or_false] at hp
  rcases hp with rfl | rfl | rfl | rfl <;> trivial

example : (Optimizer.init (demoCity 3) fewTrips demoFair demoFleet.net none).isOk = true ∧
    fleetOpt.threeCosts [2, 3] ≠ (fleetOpt.seen (demoFleet.turn (demoFleet.assignAll newValues))
      (demoFleet.turn (demoFleet.assignAll newValues))).threeCosts [2, 3] ∧
    (demoFleet.assignAll newValues).net.modes.map (fun m => (m.co, m.c1, m.c2, m.t)) = [(20, 2, 1/10, 5), (8, 2, 3, 2)] := by decide +kernel

/-- an initial frequency is assigned and another one is refused -/
def newStarts : List (Nat × ModeAssign ℚ) := [(1, .fini (some 7)), (2, .fini (some (-1)))]

/-- the hypothesis of C98_initial_frequencies_are_not_seen holds -/
example : (∀ p ∈ newStarts, p.2.Initial) := by
  intro p hp
  simp only [newStarts, List.mem_cons, List.not_mem_nil, or_false] at hp
  rcases hp with rfl | rfl <;> trivial

/-- an optimizer that is built after the assignment -/
def startsOpt : Optimizer ℚ :=
  ((Optimizer.init (demoCity 3) fewTrips demoFair (demoFleet.assignAll newStarts).net none).toOption).getD busOpt

/-- the assignment is kept in the network, and an optimizer that is built afterwards starts from other frequencies -/
example : (Optimizer.init (demoCity 3) fewTrips demoFair (demoFleet.assignAll newStarts).net none).isOk = true ∧
    (fleetOpt.seen (demoFleet.turn (demoFleet.assignAll newStarts)) (demoFleet.turn (demoFleet.assignAll newStarts))).fopt = fleetOpt.fopt ∧
    startsOpt.fopt ≠ fleetOpt.fopt ∧
    (demoFleet.assignAll newStarts).net ≠ demoFleet.net := by decide +kernel

end Examples

end Sidermit
