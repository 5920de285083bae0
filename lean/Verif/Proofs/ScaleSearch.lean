import Verif.Proofs.Scale
import Verif.Proofs.Dict
import Verif.Spec.Scale

/-!
A factor on all the trips: the demand, the search of paths and the constructor of the optimizer.
-/

set_option linter.unusedSectionVars false

namespace Sidermit

variable {K : Type} [Field K] [LinearOrder K]

/-! ### the search of paths -/

theorem forM_times {α β : Type} {step : α → Py Unit} {step' : β → Py Unit} {ψ : α → β} (h : ∀ a, step' (ψ a) = step a) :
    ∀ l : List α, (l.map ψ).forM step' = l.forM step := by
  intro l
  induction l with
  | nil => rfl
  | cons a t ih =>
    show (step' (ψ a) >>= fun _ => (t.map ψ).forM step') = (step a >>= fun _ => t.forM step)
    rw [h, ih]

theorem mapM_times {α β γ δ : Type} {step : α → Py γ} {step' : β → Py δ} {ψ : α → β} {φ : γ → δ}
    (h : ∀ a, step' (ψ a) = (step a).map φ) : ∀ l : List α, (l.map ψ).mapM step' = (l.mapM step).map (List.map φ) := by
  intro l
  induction l with
  | nil => rfl
  | cons a t ih =>
    rw [List.map_cons, List.mapM_cons, List.mapM_cons, h, ih]
    cases step a with
    | error _ => rfl
    | ok b =>
      cases t.mapM step with
      | error _ => rfl
      | ok bs => rfl

theorem networkValidator_times {c : K} (hc : c ≠ 0) (nodes : ENodes K) (edges : List (EEdge K)) (pas : Passenger K)
    (od : Dict Int (Dict Int K)) : networkValidator nodes edges pas (timesMatrix c od) = networkValidator nodes edges pas od := by
  have h : (timesMatrix c od).forM (checkRow nodes edges pas) = od.forM (checkRow nodes edges pas) := by
    refine forM_times (ψ := fun r : Int × Dict Int K => (r.1, times c r.2)) ?_ od
    intro r
    refine forM_times (ψ := fun p : Int × K => (p.1, c * p.2)) ?_ r.2
    intro p
    unfold checkCell
    simp only [ne_eq, mul_eq_zero, hc, false_or]
  unfold networkValidator
  rw [h]

theorem odAll_times {c : K} (hc : c ≠ 0) (nodes : ENodes K) (edges : List (EEdge K)) (pas : Passenger K)
    (od : Dict Int (Dict Int K)) :
    odAll nodes edges pas (timesMatrix c od) = (odAll nodes edges pas od).map (List.map (ODResult.scale c)) := by
  have hcell : ∀ (o : Int) (p : Int × K), odCell nodes edges pas o (p.1, c * p.2) =
      (odCell nodes edges pas o p).map (List.map (ODResult.scale c)) := by
    intro o p
    unfold odCell
    simp only [ne_eq, mul_eq_zero, hc, false_or]
    split
    · unfold odResult
      cases cityOf nodes o with
      | none => rfl
      | some a =>
        cases cityOf nodes p.1 with
        | none => rfl
        | some b =>
          simp only
          cases hyperpathOD ⟨nodes, edges, pas, none, none⟩ a b with
          | error _ => rfl
          | ok r => rfl
    · rfl
  have hrow : ∀ r : Int × Dict Int K, odRow nodes edges pas (r.1, times c r.2) =
      (odRow nodes edges pas r).map (List.map (ODResult.scale c)) := by
    intro r
    unfold odRow
    have h := mapM_times (ψ := fun p : Int × K => (p.1, c * p.2)) (hcell r.1) r.2
    simp only [times]
    rw [h]
    cases r.2.mapM (odCell nodes edges pas r.1) with
    | error _ => rfl
    | ok l => simp only [Except.map, py_ok_bind, py_pure, List.map_flatten]
  unfold odAll
  have h := mapM_times (ψ := fun r : Int × Dict Int K => (r.1, times c r.2)) hrow od
  unfold timesMatrix
  rw [h]
  cases od.mapM (odRow nodes edges pas) with
  | error _ => rfl
  | ok l => simp only [Except.map, py_ok_bind, py_pure, List.map_flatten]

theorem allHyperpaths_times {c : K} (hc : c ≠ 0) (nodes : ENodes K) (edges : List (EEdge K)) (pas : Passenger K)
    (od : Dict Int (Dict Int K)) :
    allHyperpaths nodes edges pas (timesMatrix c od) = (allHyperpaths nodes edges pas od).map (List.map (ODResult.scale c)) := by
  unfold allHyperpaths
  rw [networkValidator_times hc, odAll_times hc]
  cases networkValidator nodes edges pas od with
  | error _ => rfl
  | ok b => cases b <;> rfl

theorem getAssignment_times (c : K) (l : List (ODResult K)) (p vp spa spv : K) :
    getAssignment (l.map (ODResult.scale c)) p vp spa spv = getAssignment l p vp spa spv := by
  unfold getAssignment
  have h := mapM_times (φ := id) (ψ := ODResult.scale c)
    (step := fun e : ODResult K => sharesOf (Dict.keys e.paths) e.res.label p vp spa spv)
    (step' := fun e : ODResult K => sharesOf (Dict.keys e.paths) e.res.label p vp spa spv)
    (fun e => by
      show sharesOf (Dict.keys e.paths) e.res.label p vp spa spv = _
      cases sharesOf (Dict.keys e.paths) e.res.label p vp spa spv <;> rfl) l
  rw [h]
  cases l.mapM fun e : ODResult K => sharesOf (Dict.keys e.paths) e.res.label p vp spa spv with
  | error _ => rfl
  | ok s => simp only [Except.map, List.map_id]

/-! ### the constructor -/

/-- the optimizer with `c` times the trips -/
def Optimizer.timesTrips (c : K) (o : Optimizer K) : Optimizer K :=
  { o with demand := o.demand.times c, pairs := Sidermit.timesTrips c o.pairs }

variable [PyMath K]

theorem prepare_times {c : K} (hc : c ≠ 0) (g : Graph K) (d : Demand K) (pas : Passenger K) (net : Network K)
    (f : Option (Dict Str K)) :
    Optimizer.prepare g (d.times c) pas net f = (Optimizer.prepare g d pas net f).map (Optimizer.timesTrips c) := by
  unfold Optimizer.prepare
  simp only
  cases buildExtGraph g net.routes pas.pt (some (f0 net.routes f).f) with
  | error _ => rfl
  | ok x =>
    simp only [py_ok_bind]
    show (allHyperpaths x.nodes x.edges pas (timesMatrix c d.matrix) >>= _) = _
    rw [allHyperpaths_times hc]
    cases allHyperpaths x.nodes x.edges pas d.matrix with
    | error _ => rfl
    | ok res =>
      simp only [Except.map, py_ok_bind]
      cases widthOf g with
      | error _ => rfl
      | ok p =>
        simp only [py_ok_bind]
        rw [getAssignment_times]
        cases getAssignment res p pas.va pas.pa pas.pv with
        | error _ => rfl
        | ok shares =>
          simp only [py_ok_bind, py_pure, Optimizer.timesTrips, Sidermit.timesTrips]
          rw [List.zip_map_left]
          rfl

end Sidermit
