import Verif.Props.Hyperpath
import Verif.Props.Results
import Verif.Props.TotalCost
import Verif.Proofs.Behaviour

/-!
C67: what the values of time of the passenger decide.
-/

set_option linter.unusedSectionVars false

namespace Sidermit

section Generic

variable {K : Type} [Field K] [LinearOrder K] [IsStrictOrderedRing K] [PyMath K] {p q : Passenger K}

/-- C67: the routing depends on the values of time only through two ratios.  Passengers with the same walking speed and
transfer penalty that weigh waiting and access against the time in the vehicle alike get the same hyperpaths, labels and
shares of the stops, or the same error; the constructor of the optimizer builds the same object but for the passenger. -/
theorem C67_same_choices (h : SameChoices p q) (g : Graph K) (d : Demand K) (net : Network K) (f : Option (Dict Str K)) :
    (∀ nodes edges od, networkValidator nodes edges q od = networkValidator nodes edges p od ∧
      allHyperpaths nodes edges q od = allHyperpaths nodes edges p od) ∧
    (∀ l w, getAssignment l w q.va q.pa q.pv = getAssignment l w p.va p.pa p.pv) ∧
    Optimizer.init g d q net f = (Optimizer.init g d p net f).map fun o => { o with pas := q } := by
  refine ⟨fun nodes edges od => ?_, fun l w => ?_, init_same h g d net f⟩
  · rw [networkValidator_same h, allHyperpaths_same h]
    exact ⟨rfl, rfl⟩
  · rw [h.va, getAssignment_same h]

/-- the passenger of an optimizer is the one it was built with -/
theorem init_passenger {g : Graph K} {d : Demand K} {net : Network K} {f : Option (Dict Str K)} {o : Optimizer K}
    (ho : Optimizer.init g d p net f = .ok o) : o.graph = g ∧ o.demand = d ∧ o.pas = p ∧ o.net = net := by
  unfold Optimizer.init Optimizer.prepare at ho
  simp only [py_bind_eq_ok, py_pure, Except.ok.injEq] at ho
  obtain ⟨o', ⟨x, _, res, _, w, _, s, _, rfl⟩, _, _, rfl⟩ := ho
  exact ⟨rfl, rfl, rfl, rfl⟩

/-- the cost with another passenger -/
theorem usersCost_same (hva : q.va = p.va) (N : Nat) (f : Dict Str K) (x : ExtGraph K) (z v : Dict (LoadKey K) K)
    (l : List (ODResult K × Dict (StopNode K) K)) :
    (∃ e, usersCost N f x p z v l = .error e ∧ usersCost N f x q z v l = .error e) ∨
    ∃ u : Resources K, usersCost N f x p z v l = .ok (resourcesCost p u) ∧ usersCost N f x q z v l = .ok (resourcesCost q u) := by
  unfold usersCost
  rw [hva]
  cases resourcesConsumer N f x p.va z v l with
  | error e => exact Or.inl ⟨e, rfl, rfl⟩
  | ok u => exact Or.inr ⟨u, rfl, rfl⟩

/-- C67: the loads, the constraints and the costs of operators and of the infrastructure do not depend on the values of time
beyond those ratios; and the cost of the users is the same hours and transfers (access, waiting, in the vehicle, transfers)
priced with the social values of each passenger. -/
theorem C67_costs (h : SameChoices p q) {g : Graph K} {d : Demand K} {net : Network K} {f0 : Option (Dict Str K)}
    {o : Optimizer K} (ho : Optimizer.init g d p net f0 = .ok o) :
    ∃ o', Optimizer.init g d q net f0 = .ok o' ∧
      (∀ f, o'.loads f = o.loads f) ∧ (∀ fopt, o'.constrains fopt = o.constrains fopt) ∧
      ∀ f t, (∃ e, o.costs f t = .error e ∧ o'.costs f t = .error e) ∨
        ∃ co ci ta te tv tr : K,
          o.costs f t = .ok (co, ci, ta * p.spa + te * p.spw + tv * p.spv + tr * p.spt / 60 * p.spv) ∧
          o'.costs f t = .ok (co, ci, ta * q.spa + te * q.spw + tv * q.spv + tr * q.spt / 60 * q.spv) := by
  obtain ⟨_, _, hp, _⟩ := init_passenger ho
  refine ⟨{ o with pas := q }, ?_, fun f => rfl, fun fopt => rfl, ?_⟩
  · rw [init_same h, ho]
    rfl
  · intro f t
    unfold Optimizer.costs
    have hop : ({ o with pas := q } : Optimizer K).operatorsCost t.z t.v f (getK t.load) =
        o.operatorsCost t.z t.v f (getK t.load) := rfl
    rw [hop]
    cases o.operatorsCost t.z t.v f (getK t.load) with
    | error e => exact Or.inl ⟨e, rfl, rfl⟩
    | ok co =>
      simp only [py_ok_bind, hp]
      rcases usersCost_same h.va (allNodes o.ext.nodes).length f o.ext co.2.z co.2.v o.pairs with ⟨e, h1, h2⟩ | ⟨u, h1, h2⟩
      · rw [h1, h2]
        exact Or.inl ⟨e, rfl, rfl⟩
      · rw [h1, h2]
        exact Or.inr ⟨_, _, u.ta, u.te, u.tv, u.t, rfl, rfl⟩

/-- C67: when the social values of access, waiting and time in the vehicle are multiplied by a number, the cost of the users
is multiplied by it and the other costs stay. -/
theorem C67_social_values (h : SameChoices p q) (k : K) (ha : q.spa = k * p.spa) (hw : q.spw = k * p.spw)
    (hv : q.spv = k * p.spv) (ht : q.spt = p.spt) {g : Graph K} {d : Demand K} {net : Network K} {f0 : Option (Dict Str K)}
    {o o' : Optimizer K} (ho : Optimizer.init g d p net f0 = .ok o) (ho' : Optimizer.init g d q net f0 = .ok o')
    {f : Dict Str K} {t : Loads K} {co ci cu : K} :
    o.costs f t = .ok (co, ci, cu) → o'.costs f t = .ok (co, ci, k * cu) := by
  intro hc
  obtain ⟨o'', h1, _, _, h2⟩ := C67_costs h ho
  rw [ho'] at h1
  cases h1
  rcases h2 f t with ⟨e, h3, _⟩ | ⟨co, ci, ta, te, tv, tr, h3, h4⟩
  · rw [hc] at h3; cases h3
  · rw [hc] at h3
    cases h3
    rw [h4, ha, hw, hv, ht]
    congr 3
    ring

/-- C67: the values the passengers decide with (`pv`, `pw`, `pa`) multiplied by one number change nothing: the objective
function is the same. -/
theorem C67_scaled_choices (h : SameChoices p q) (ha : q.spa = p.spa) (hw : q.spw = p.spw) (hv : q.spv = p.spv)
    (ht : q.spt = p.spt) {g : Graph K} {d : Demand K} {net : Network K} {f0 : Option (Dict Str K)} {o o' : Optimizer K}
    (ho : Optimizer.init g d p net f0 = .ok o) (ho' : Optimizer.init g d q net f0 = .ok o') (fopt : List K) :
    o'.vrc fopt = o.vrc fopt := by
  have hinit := init_same h g d net f0
  rw [ho, ho'] at hinit
  cases hinit
  obtain ⟨_, _, hp, _⟩ := init_passenger ho
  unfold Optimizer.vrc
  have hc : ∀ f t, (o.withPassenger q).costs f t = o.costs f t := by
    intro f t
    obtain ⟨o'', h1, _, _, h2⟩ := C67_costs h ho
    rw [ho'] at h1
    cases h1
    rcases h2 f t with ⟨e, h3, h4⟩ | ⟨co, ci, ta, te, tv, tr, h3, h4⟩
    · rw [h3, h4]
    · rw [h3, h4, ha, hw, hv, ht]
  simp only [hc]
  rfl

/-- C67: so an optimisation whose solver looks only at the objective and the constraints ends with the same frequencies. -/
theorem C67_same_optimum (h : SameChoices p q) (g : Graph K) (d : Demand K) (net : Network K) (f : Option (Dict Str K)) (tol : K)
    (limit : Option Int) (solve solve' : Nat → Optimizer K → Py (Res K))
    (hs : ∀ i o, solve' i { o with pas := q } = solve i o) (fuel : Nat) :
    externalOptimization g d q net f tol limit solve' fuel = externalOptimization g d p net f tol limit solve fuel := by
  have hloop : ∀ fuel i o pre new l,
      externalLoop (fun f => Optimizer.init g d q net (some f)) solve' tol limit fuel i (o.withPassenger q) pre new l =
        externalLoop (fun f => Optimizer.init g d p net (some f)) solve tol limit fuel i o pre new l := by
    intro fuel
    induction fuel with
    | zero => intros; rfl
    | succ n ih =>
      intro i o pre new l
      unfold externalLoop
      cases withinTolerance pre new tol with
      | error e => rfl
      | ok b =>
        simp only [py_ok_bind]
        split_ifs
        · rfl
        · have hl : (o.withPassenger q).lines = o.lines := rfl
          rw [hl]
          cases foptToF o.lines new with
          | error e => rfl
          | ok f =>
            simp only [py_ok_bind]
            rw [init_same h g d net (some f)]
            cases Optimizer.init g d p net (some f) with
            | error e => rfl
            | ok o1 =>
              have : solve' i (o1.withPassenger q) = solve i o1 := hs i o1
              simp only [Except.map, py_ok_bind, this]
              cases solve i o1 with
              | error e => rfl
              | ok r =>
                simp only [py_ok_bind]
                exact ih _ _ _ _ _
  have hres : externalResults g d q net f tol limit solve' fuel = externalResults g d p net f tol limit solve fuel := by
    unfold externalResults
    rw [init_same h]
    cases Optimizer.init g d p net f with
    | error e => rfl
    | ok o1 =>
      have : solve' 0 (o1.withPassenger q) = solve 0 o1 := hs 0 o1
      simp only [Except.map, py_ok_bind, this]
      cases solve 0 o1 with
      | error e => rfl
      | ok r =>
        simp only [py_ok_bind]
        exact hloop _ _ _ _ _ _
  unfold externalOptimization
  rw [hres]

end Generic

/-! ## examples -/

section Examples

attribute [local instance] ratMath ratText

/-- a passenger three times as rich, whose time is socially worth five times as much -/
def richFair : Passenger ℚ :=
  { demoFair with pv := 3 * demoFair.pv, pw := 3 * demoFair.pw, pa := 3 * demoFair.pa,
                  spv := 5 * demoFair.spv, spw := 5 * demoFair.spw, spa := 5 * demoFair.spa }

theorem richFair_same : SameChoices demoFair richFair :=
  ⟨rfl, rfl, by decide +kernel, by decide +kernel, by decide +kernel, by decide +kernel⟩

example : (Optimizer.init (demoCity 3) busDemand demoFair busNet none).isOk = true := by decide +kernel

/-- costs of operators, infrastructure and users with either passenger -/
def costsOf (pas : Passenger ℚ) : Py (ℚ × ℚ × ℚ) := do
  let o ← Optimizer.init (demoCity 3) busDemand pas busNet none
  let t ← o.loads [("a".toList, 2), ("c".toList, 3)]
  o.costs [("a".toList, 2), ("c".toList, 3)] t

example : (costsOf demoFair).toOption = some (23062/225, 7/2, 37181/675) ∧
    (costsOf richFair).toOption = some (23062/225, 7/2, 5 * (37181/675)) := by decide +kernel

end Examples

end Sidermit
