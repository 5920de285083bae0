import Verif.Proofs.UnitsOpt
import Verif.Proofs.Behaviour
import Verif.Spec.Prices

/-!
Only the prices differ.
-/

set_option linter.unusedSectionVars false

namespace Sidermit

variable {K : Type} [Field K] [LinearOrder K] [IsStrictOrderedRing K] [PyMath K]

/-- new prices of the modes as another description of the same things -/
def Change.terms (c : Change K) : Terms K := ⟨id, c.mode, id, id, 1, 1⟩

theorem Change.keeps (c : Change K) : c.terms.Keeps where
  len := one_pos
  nodes := Function.injective_id
  modes := by
    rintro ⟨⟩ ⟨⟩ e
    simp only [Change.terms, Change.mode, Mode.mk.injEq] at e
    obtain ⟨rfl, e2, e3, e4, e5, e6, e7, e8, e9, e10, e11, e12, e13, e14⟩ := e
    simp only [Mode.mk.injEq]
    exact ⟨trivial, e2, e3, add_right_cancel e4, add_right_cancel e5, add_right_cancel e6, e7, e8, e9, e10, e11, e12, e13, e14⟩
  nodeIds := Function.injective_id
  lineIds := Function.injective_id
  id := fun _ => rfl
  width := fun _ => (one_mul _).symm
  apart := fun _ _ => (one_mul _).symm
  name := fun _ _ => Iff.rfl
  bya := fun _ => rfl
  v := fun _ => (one_mul _).symm
  t := fun _ => rfl
  fmax := fun _ => rfl
  kmax := fun _ => rfl
  theta := fun _ => rfl
  tat := fun _ => rfl
  d := fun _ => rfl

theorem Change.starts (c : Change K) : c.terms.Starts := fun _ => rfl

theorem terms_graph (c : Change K) (g : Graph K) : c.terms.graph g = g := by
  have h1 : ∀ a : Option K, a.map ((1 : K) * ·) = a := fun a => by cases a <;> simp
  show { g with nodes := g.nodes.map id, l := g.l.map ((1 : K) * ·), p := g.p.map ((1 : K) * ·) } = g
  rw [h1, h1, List.map_id]

theorem terms_frequencies (c : Change K) (f : Dict Str K) : c.terms.frequencies f = f := by
  show f.map (fun p => (id p.1, p.2)) = f
  simp

theorem terms_demand (c : Change K) (d : Demand K) : c.terms.demand d = d := by
  show (⟨c.terms.graph d.graph, d.matrix.map fun p => (id p.1, p.2.map fun q => (id q.1, q.2)), d.total⟩ : Demand K) = d
  rw [terms_graph]
  simp

theorem terms_passenger (c : Change K) (p : Passenger K) : c.terms.passenger p = p := by
  show (⟨1 * p.va, p.pv, p.pw, p.pa, p.pt, 1 * p.spv, 1 * p.spw, 1 * p.spa, p.spt⟩ : Passenger K) = p
  simp only [one_mul]

theorem terms_route (c : Change K) (r : Route K) : c.terms.route r = c.route r := by
  show (⟨id r.id, c.mode r.mode, r.nodesI.map id, r.nodesR.map id, r.stopsI.map id, r.stopsR.map id, r.type⟩ : Route K) = _
  simp only [List.map_id]
  rfl

theorem terms_network (c : Change K) (n : Network K) : c.terms.network n = c.network n := by
  show (⟨c.terms.graph n.graph, n.routes.map c.terms.route, n.routeIds.map id, n.modes.map c.mode⟩ : Network K) = _
  rw [terms_graph, List.map_id, funext (terms_route c)]
  rfl

/-- the optimizer with the new prices in the modes -/
theorem init_change (c : Change K) (g : Graph K) (d : Demand K) (pas : Passenger K) (net : Network K) (f : Option (Dict Str K)) :
    PyRel c.terms.Same (Optimizer.init g d pas net f) (Optimizer.init g d pas (c.network net) f) := by
  have h := init_terms c.keeps c.starts g d pas net f
  have hf : f.map c.terms.frequencies = f := by
    rw [funext (terms_frequencies c)]
    cases f <;> rfl
  rw [terms_graph, terms_demand, terms_passenger, terms_network, hf] at h
  exact h

theorem table_change (c : Change K) (g : Graph K) (routes : List (Route K)) (modes : List (Mode K)) (f : Dict Str K) :
    modeDistance g (routes.map c.route) (modes.map c.mode) f =
      (modeDistance g routes modes f).map fun l => (c.mode l.1, l.2) := by
  have h := modeDistance_terms c.keeps.toShape g routes modes f
  rw [terms_graph, terms_frequencies, funext (terms_route c)] at h
  rw [show modes.map c.mode = modes.map c.terms.mode from rfl, h]
  show Dict.via c.mode (fun y : K => 1 * y) _ = _
  simp only [one_mul]
  rfl

/-- what is used does not depend on the prices -/
theorem usage_change (c : Change K) {o o' : Optimizer K} (ho : c.terms.Same o o') (x : List K) :
    PyRel (fun a b => b = c.usage a) (o.usage x) (o'.usage x) := by
  have h := c.keeps
  unfold Optimizer.usage
  rw [ho.lines]
  refine PyRel.bind (foptToF_terms h.toShape o.lines x) ?_
  rintro f _ rfl
  refine PyRel.bind (loads_terms h.toShape ho f) ?_
  rintro t _ rfl
  refine PyRel.bind (times_terms h.toShape ho) ?_
  rintro times _ rfl
  have hr : o'.net.routes = o.net.routes.map c.terms.route := by rw [ho.net]; rfl
  have hg : o'.graph = o.graph := by rw [ho.graph, terms_graph]
  have hm : o'.net.modes = o.net.modes.map c.mode := by rw [ho.net]; rfl
  have hva : o'.pas.va = c.terms.len * o.pas.va := by rw [ho.pas]; rfl
  have hc := getCycleTime_terms h t.z t.v o.net.routes times
  have hc' : getCycleTime (c.terms.loads t).z (c.terms.loads t).v o'.net.routes (c.terms.frequencies times) =
    c.terms.cycles (getCycleTime t.z t.v o.net.routes times) := by rw [hr]; exact hc
  simp only [hc']
  generalize getCycleTime t.z t.v o.net.routes times = cy
  refine PyRel.bind (R := fun a b => b = a) ?_ ?_
  · rw [Same.size ho, ho.ext, hva]
    exact resourcesConsumer_terms h _ f o.ext o.pas.va cy.z cy.v ho.pairs
  rintro _ u rfl
  refine .ok ?_
  have hk : getK (c.terms.loads t).load = c.terms.frequencies (getK t.load) := getK_terms h.toShape t.load
  have ht : (c.terms.cycles cy).time = c.terms.frequencies cy.time := rfl
  rw [hk, ht, terms_frequencies, terms_frequencies, terms_frequencies, hg, hm, hr, funext (terms_route c), table_change,
    List.filter_map, List.map_map]
  unfold Change.usage
  rw [List.map_map]
  rfl

theorem operators_bill (p : Mode K → K) (q : Mode K → K) (f cycle k : Dict Str K) (routes : List (Route K)) (hp : p = Mode.co)
    (hq : q = Mode.c1) :
    operatorsCost routes cycle f k = (((routes.filter fun r => f.getD r.id 0 ≠ 0).map fun r =>
      (r.mode, f.getD r.id 0 * cycle.getD r.id 0, k.getD r.id 0 * (f.getD r.id 0 * cycle.getD r.id 0))).map
        fun l => p l.1 * l.2.1 + q l.1 * l.2.2).sum := by
  subst hp hq
  unfold operatorsCost
  have key : ∀ (rs : List (Route K)) (s : K), rs.foldl (operatorStep cycle f k) s = s +
      (((rs.filter fun r => f.getD r.id 0 ≠ 0).map fun r =>
      (r.mode, f.getD r.id 0 * cycle.getD r.id 0, k.getD r.id 0 * (f.getD r.id 0 * cycle.getD r.id 0))).map
        fun l => Mode.co l.1 * l.2.1 + Mode.c1 l.1 * l.2.2).sum := by
    intro rs
    induction rs with
    | nil => intro s; simp
    | cons r rs ih =>
      intro s
      rw [List.foldl_cons, ih]
      unfold operatorStep
      by_cases h : f.getD r.id 0 = 0
      · rw [if_pos h, List.filter_cons_of_neg (by simpa using h)]
      · rw [if_neg h, List.filter_cons_of_pos (by simpa using h), List.map_cons, List.map_cons, List.sum_cons]
        ring
  rw [key, zero_add]

theorem infrastructure_bill (l : List (Mode K × K)) :
    l.foldl (fun ci p => ci + p.1.c2 * p.2) 0 = (l.map fun p => p.1.c2 * p.2).sum := by
  have key : ∀ (l : List (Mode K × K)) (s : K), l.foldl (fun ci p => ci + p.1.c2 * p.2) s = s + (l.map fun p => p.1.c2 * p.2).sum := by
    intro l
    induction l with
    | nil => intro s; simp
    | cons a l ih =>
      intro s
      rw [List.foldl_cons, ih, List.map_cons, List.sum_cons]
      ring
  rw [key, zero_add]

/-- the objective is what is used, at the prices -/
theorem vrc_bill (o : Optimizer K) (x : List K) : PyRel (fun s c => c = (Prices.of o.pas).bill s) (o.usage x) (o.vrc x) := by
  unfold Optimizer.vrc Optimizer.usage Optimizer.costs Optimizer.operatorsCost usersCost
  refine PyRel.bind (PyRel.refl _) ?_
  rintro _ f rfl
  refine PyRel.bind (PyRel.refl _) ?_
  rintro _ t rfl
  simp only [bind_assoc]
  refine PyRel.bind (PyRel.refl _) ?_
  rintro _ times rfl
  simp only [py_pure, py_ok_bind]
  refine PyRel.bind (PyRel.refl _) ?_
  rintro _ u rfl
  refine .ok ?_
  unfold Prices.bill
  rw [operators_bill _ _ _ _ _ _ rfl rfl, infrastructureCost, infrastructure_bill]
  unfold resourcesCost Prices.of
  simp only
  ring

/-- the objective when only the social values of the passenger differ -/
theorem usage_passenger (o : Optimizer K) (p : Passenger K) (h : p.va = o.pas.va) (x : List K) :
    ({ o with pas := p } : Optimizer K).usage x = o.usage x := by
  unfold Optimizer.usage
  simp only [h]
  rfl

theorem change_same_choices (c : Change K) {pas : Passenger K} (h : pas.pv ≠ 0) : SameChoices pas (c.passenger pas) :=
  ⟨rfl, rfl, h, h, rfl, rfl⟩

end Sidermit
