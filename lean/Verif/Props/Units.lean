import Verif.Proofs.UnitsOpt
import Verif.Proofs.UnitsCity
import Verif.Proofs.UnitsDemand
import Verif.Props.Behaviour
import Verif.Props.Rename
import Verif.Spec.RealMath

/-!
C84: the units, the names and the place of the city do not matter for the optimisation.
-/

set_option linter.unusedSectionVars false

namespace Sidermit

section Generic

variable {K : Type} [Field K] [LinearOrder K] [IsStrictOrderedRing K] [PyMath K] {u : Terms K}

/-- C84: the optimizer of the second description: it exists when the first does (and else the same exception is raised), starts
with the same frequencies of the same lines, has the same constraints, and the objective in the other money. -/
theorem C84_optimizer (h : u.Fair) (g : Graph K) (d : Demand K) (pas : Passenger K) (net : Network K) (f : Option (Dict Str K)) :
    (Optimizer.init (u.graph g) (u.demand d) (u.passenger pas) (u.network net) (f.map u.frequencies)).map
        (fun o => (o.fopt, o.lines, o.vrc, o.constrains)) =
      (Optimizer.init g d pas net f).map fun o =>
        (o.fopt, o.lines.map u.lineId, fun x => (o.vrc x).map (u.money * ·), o.constrains) := by
  have hi := init_terms h.toKeeps h.fini g d pas net f
  revert hi
  generalize Optimizer.init g d pas net f = a
  generalize Optimizer.init (u.graph g) (u.demand d) (u.passenger pas) (u.network net) (f.map u.frequencies) = b
  intro hi
  cases hi with
  | error e => rfl
  | ok ho =>
    show Except.ok _ = Except.ok _
    congr 1
    refine Prod.ext ho.fopt (Prod.ext ho.lines (Prod.ext ?_ ?_))
    · funext x
      exact PyRel.to_map (vrc_terms h.toBills ho x)
    · funext x
      exact PyRel.to_eq (constrains_terms h.toKeeps ho x)

/-- the costs of operators, infrastructure and users for given frequencies, as `VRC` adds them -/
def costsWith (g : Graph K) (d : Demand K) (pas : Passenger K) (net : Network K) (f : Option (Dict Str K)) (x : List K) :
    Py (K × K × K) := do
  let o ← Optimizer.init g d pas net f
  let f ← foptToF o.lines x
  let t ← o.loads f
  o.costs f t

/-- C84: each of the three costs is the same in the other money. -/
theorem C84_costs (h : u.Fair) (g : Graph K) (d : Demand K) (pas : Passenger K) (net : Network K) (f : Option (Dict Str K))
    (x : List K) :
    costsWith (u.graph g) (u.demand d) (u.passenger pas) (u.network net) (f.map u.frequencies) x =
      (costsWith g d pas net f x).map fun c => (u.money * c.1, u.money * c.2.1, u.money * c.2.2) := by
  refine PyRel.to_map (PyRel.bind (init_terms h.toKeeps h.fini g d pas net f) ?_)
  intro o o' ho
  rw [ho.lines]
  refine PyRel.bind (foptToF_terms h.toShape o.lines x) ?_
  rintro f _ rfl
  refine PyRel.bind (loads_terms h.toShape ho f) ?_
  rintro t _ rfl
  exact costs_terms h.toBills ho f t

/-- a solver that gets the number of the call, the initial frequencies, the objective and the constraints, as `minimize` does -/
abbrev Solver (K : Type) := Nat → List K → (List K → Py K) → (List K → Py (List K)) → Py (Res K)

/-- the solver used on an optimizer -/
def Solver.on (S : Solver K) (i : Nat) (o : Optimizer K) : Py (Res K) := S i o.fopt o.vrc o.constrains

/-- what the solver finds does not depend on the money in which the objective is given -/
def Solver.Indifferent (S : Solver K) (money : K) : Prop :=
  ∀ i x F G, S i x (fun y => (F y).map (money * ·)) G = (S i x F G).map fun r => { r with fn := r.fn.map (money * ·) }

theorem Solver.Indifferent.on {S : Solver K} (hS : S.Indifferent u.money) (h : u.Fair) (i : Nat) (o o' : Optimizer K)
    (ho : u.Same o o') : PyRel (fun r r' => r' = u.result r) (S.on i o) (S.on i o') := by
  refine PyRel.of_map ?_
  unfold Solver.on
  have hv : o'.vrc = fun x => (o.vrc x).map (u.money * ·) := funext fun x => PyRel.to_map (vrc_terms h.toBills ho x)
  have hc : o'.constrains = o.constrains := funext fun x => PyRel.to_eq (constrains_terms h.toKeeps ho x)
  rw [ho.fopt, hv, hc]
  exact hS i o.fopt o.vrc o.constrains

/-- C84: any solver is indifferent to the money if it stays the same. -/
theorem C84_same_money (S : Solver K) : S.Indifferent 1 := by
  intro i x F G
  have hF : (fun y => (F y).map ((1 : K) * ·)) = F := by
    funext y
    cases F y with
    | error e => rfl
    | ok c => simp [Except.map]
  rw [hF]
  cases S i x F G with
  | error e => rfl
  | ok r =>
    have hr : r.fn.map ((1 : K) * ·) = r.fn := by cases r.fn <;> simp
    simp only [Except.map, hr]

/-- C84: the optimisation ends in the same way, with the same frequencies, the cost being in the other money. -/
theorem C84_same_optimum (h : u.Fair) {S : Solver K} (hS : S.Indifferent u.money) (g : Graph K) (d : Demand K) (pas : Passenger K)
    (net : Network K) (f : Option (Dict Str K)) (tol : K) (limit : Option Int) (fuel : Nat) :
    externalOptimization (u.graph g) (u.demand d) (u.passenger pas) (u.network net) (f.map u.frequencies) tol limit S.on fuel =
      (externalOptimization g d pas net f tol limit S.on fuel).map fun r => { r with fn := r.fn.map (u.money * ·) } :=
  PyRel.to_map (externalOptimization_terms h.toBills h.fini g d pas net f tol limit (fun i o o' ho => hS.on h i o o' ho) fuel)

/-- the table of lines and the table of overall results after an optimisation -/
def tablesAfter (g : Graph K) (d : Demand K) (pas : Passenger K) (net : Network K) (f : Option (Dict Str K)) (tol : K)
    (limit : Option Int) (S : Solver K) (fuel : Nat) : Py (List (Row K) × Overall K) := do
  let q ← networkOptimization g d pas net f tol limit S.on fuel
  let rows ← q.1.networkResults (some q.2)
  let all ← q.1.overallResults (some q.2)
  return (rows, all)

/-- C84: and the tables of results are the same, with the names and the money of the second description. -/
theorem C84_results (h : u.Fair) {S : Solver K} (hS : S.Indifferent u.money) (g : Graph K) (d : Demand K) (pas : Passenger K)
    (net : Network K) (f : Option (Dict Str K)) (tol : K) (limit : Option Int) (fuel : Nat) :
    tablesAfter (u.graph g) (u.demand d) (u.passenger pas) (u.network net) (f.map u.frequencies) tol limit S fuel =
      (tablesAfter g d pas net f tol limit S fuel).map fun t => (t.1.map u.row, u.overall t.2) := by
  refine PyRel.to_map (PyRel.bind (networkOptimization_terms h.toBills h.fini g d pas net f tol limit (fun i o o' ho => hS.on h i o o' ho) fuel) ?_)
  rintro a b ⟨ho, hb⟩
  rw [hb]
  refine PyRel.bind (networkResults_terms h.toBills h.fini ho (some a.2)) ?_
  rintro rows _ rfl
  refine PyRel.bind (overallResults_terms h.toBills h.fini ho (some a.2)) ?_
  rintro all _ rfl
  exact .ok rfl

/-! ### fair descriptions -/

/-- C84: other units, other names and another place are fair, if the root of a multiple is the multiple of the root. -/
theorem C84_fair {T : K × K → K × K} {nodeId : Int → Int} {lineId modeName : Str → Str} {len money : K} (hl : 0 < len)
    (hm : 0 < money) (hT : ∀ p q, segment (T p) (T q) = len * segment p q) (hi : Function.Injective T)
    (hn : Function.Injective nodeId) (hr : Function.Injective lineId) (ho : Function.Injective modeName) :
    (Terms.standard T nodeId lineId modeName len money).Fair where
  len := hl
  money := hm
  nodes := by
    rintro ⟨a1, a2, a3, a4, a5, a6, a7, a8, a9⟩ ⟨b1, b2, b3, b4, b5, b6, b7, b8, b9⟩ e
    simp only [Terms.standard, Node.mk.injEq] at e
    obtain ⟨e1, e2, e3, e4, e5, e6, e7, e8, e9⟩ := e
    have := hi (Prod.ext e2 e3)
    rw [Prod.mk.injEq] at this
    simp only [Node.mk.injEq]
    exact ⟨hn e1, this.1, this.2, mul_left_cancel₀ hl.ne' e4, e5, mul_left_cancel₀ hl.ne' e6, e7, e8, e9⟩
  modes := by
    rintro ⟨⟩ ⟨⟩ e
    simp only [Terms.standard, Mode.mk.injEq] at e
    obtain ⟨e1, e2, e3, e4, e5, e6, e7, e8, e9, e10, e11, e12, e13, e14⟩ := e
    simp only [Mode.mk.injEq]
    exact ⟨e1, ho e2, e3, mul_left_cancel₀ hm.ne' e4, mul_left_cancel₀ hm.ne' e5, mul_left_cancel₀ (div_pos hm hl).ne' e6,
      mul_left_cancel₀ hl.ne' e7, e8, e9, e10, e11, e12, e13, e14⟩
  nodeIds := hn
  lineIds := hr
  id := fun _ => rfl
  width := fun _ => rfl
  apart := fun a b => hT (a.x, a.y) (b.x, b.y)
  name := fun _ _ => ho.eq_iff
  bya := fun _ => rfl
  co := fun _ => rfl
  c1 := fun _ => rfl
  c2 := fun _ => rfl
  v := fun _ => rfl
  t := fun _ => rfl
  fmax := fun _ => rfl
  kmax := fun _ => rfl
  theta := fun _ => rfl
  tat := fun _ => rfl
  d := fun _ => rfl
  fini := fun _ => rfl

/-- C84: a city built from parameters in the other unit of length is the city in the second description. -/
theorem C84_city {len : K} (h : 0 < len) (money : K) (n : Int) (l gg p : K) (etha : Option K) (ethaZone : Option Int)
    (angles gi hi : Option (List K)) :
    buildFromParameters n (len * l) gg (len * p) etha ethaZone angles gi hi =
      (buildFromParameters n l gg p etha ethaZone angles gi hi).map (Terms.units len money).graph :=
  PyRel.to_map (buildFromParameters_units h n l gg p etha ethaZone angles gi hi)

/-- C84: so is the demand built from parameters for it. -/
theorem C84_demand (len money : K) (g : Graph K) (y a alpha beta : K) :
    Demand.buildFromParameters ((Terms.units len money).graph g) y a alpha beta =
      (Demand.buildFromParameters g y a alpha beta).map (Terms.units len money).demand :=
  PyRel.to_map (demand_units g y a alpha beta)

end Generic

/-! ## real numbers -/

/-- C84: other units of length and money are fair. -/
theorem C84_units {len money : ℝ} (hl : 0 < len) (hm : 0 < money) : (Terms.units len money).Fair := by
  refine C84_fair hl hm ?_ ?_ Function.injective_id Function.injective_id Function.injective_id
  · intro p q
    show Real.sqrt _ = len * Real.sqrt _
    have : (len * p.1 - len * q.1) ^ 2 + (len * p.2 - len * q.2) ^ 2 = len ^ 2 * ((p.1 - q.1) ^ 2 + (p.2 - q.2) ^ 2) := by ring
    rw [this, Real.sqrt_mul (sq_nonneg _), Real.sqrt_sq hl.le]
  · rintro ⟨a, b⟩ ⟨c, d⟩ e
    simp only [Prod.mk.injEq] at e
    rw [mul_left_cancel₀ hl.ne' e.1, mul_left_cancel₀ hl.ne' e.2]

/-! ## examples -/

section Examples

attribute [local instance] ratMath ratText

/-- kilometres and thousands of pesos become metres and pesos -/
example : (Terms.units 1000 1000 : Terms ℝ).Fair := C84_units (by norm_num) (by norm_num)

/-- another money worth a seventh, other numbers and names, and the city mirrored -/
def abroad : Terms ℚ := Terms.standard mirror (· + 10) ('L' :: ·) ('M' :: ·) 1 7

theorem abroad_fair : abroad.Fair := by
  refine C84_fair (by norm_num) (by norm_num) (fun p q => by rw [mirror_keeps, one_mul]) ?_ (add_left_injective 10)
    (fun a b e => (List.cons.inj e).2) (fun a b e => (List.cons.inj e).2)
  rintro ⟨a, b⟩ ⟨c, d⟩ e
  simp only [mirror, Prod.mk.injEq, sub_right_inj, add_left_inj] at e
  rw [e.1, e.2]

example : (costsWith (demoCity 3) busDemand demoFair busNet none [2, 3]).toOption = some (23062/225, 7/2, 37181/675) ∧
    (costsWith (abroad.graph (demoCity 3)) (abroad.demand busDemand) (abroad.passenger demoFair) (abroad.network busNet) none
      [2, 3]).toOption = some (7 * (23062/225), 7 * (7/2), 7 * (37181/675)) := by decide +kernel

/-- a solver that stays where it is -/
def lazySolver : Solver ℚ := fun _ x F _ => (F x).map fun c : ℚ => ⟨x, some true, 1, "done".toList, 0, (c : WithTop ℚ)⟩

theorem lazySolver_indifferent (money : ℚ) : lazySolver.Indifferent money := by
  intro i x F G
  unfold lazySolver
  cases h : F x <;> simp only [h] <;> rfl

example : (externalOptimization (demoCity 3) busDemand demoFair busNet none 1 none lazySolver.on 3).isOk = true ∧
    (tablesAfter (demoCity 3) busDemand demoFair busNet none 1 none lazySolver 3).isOk = true := by decide +kernel

end Examples

end Sidermit
