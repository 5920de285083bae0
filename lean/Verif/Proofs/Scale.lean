import Verif.Model.Optimizer
import Verif.Proofs.Users
import Verif.Proofs.PyLemmas
import Verif.Spec.Scale

/-!
What a factor on all the trips and a factor on all the frequencies do to the search, the loading and the constraints.
-/

set_option linter.unusedSectionVars false

namespace Sidermit

variable {K : Type} [Field K] [LinearOrder K]

/-! ### tables -/

theorem keys_times {α : Type} (c : K) (d : Dict α K) : Dict.keys (times c d) = Dict.keys d := by
  simp [Dict.keys, times]

theorem get?_times {α : Type} [DecidableEq α] (c : K) (d : Dict α K) (k : α) :
    (times c d).get? k = (d.get? k).map (c * ·) := by
  induction d with
  | nil => rfl
  | cons p t ih =>
    show Dict.get? ((p.1, c * p.2) :: times c t) k = _
    rw [Dict.get?_cons, show (p :: t : Dict α K) = (p.1, p.2) :: t from rfl, Dict.get?_cons, ih]
    split <;> rfl

theorem getD_times {α : Type} [DecidableEq α] (c : K) (d : Dict α K) (k : α) :
    (times c d).getD k 0 = c * d.getD k 0 := by
  unfold Dict.getD
  rw [get?_times]
  cases d.get? k <;> simp

theorem set_times {α : Type} [DecidableEq α] (c : K) (d : Dict α K) (k : α) (x : K) :
    (times c d).set k (c * x) = times c (d.set k x) := by
  induction d with
  | nil => rfl
  | cons p t ih =>
    obtain ⟨k', y⟩ := p
    show Dict.set ((k', c * y) :: times c t) k (c * x) = times c (Dict.set ((k', y) :: t) k x)
    simp only [Dict.set]
    split
    · rfl
    · rw [ih]; rfl

theorem addTo_times (c : K) (d : Dict (LoadKey K) K) (k : LoadKey K) (x : K) :
    addTo (times c d) k (c * x) = times c (addTo d k x) := by
  unfold addTo
  rw [getD_times, ← mul_add, set_times]

/-! ### the loop over the generations -/

theorem levelFold_map {σ τ : Type} {step : σ → Item K → Py (σ × List (Item K))} {step' : τ → Item K → Py (τ × List (Item K))}
    {φ : σ → τ} {ψ : Item K → Item K}
    (h : ∀ s w, step' (φ s) (ψ w) = (step s w).map fun r => (φ r.1, r.2.map ψ)) :
    ∀ (l : List (Item K)) (s : σ) (acc : List (Item K)), (l.map ψ).foldlM (levelStep step') (φ s, acc.map ψ) =
      (l.foldlM (levelStep step) (s, acc)).map fun r => (φ r.1, r.2.map ψ) := by
  intro l
  induction l with
  | nil => intro s acc; rfl
  | cons w t ih =>
    intro s acc
    rw [List.map_cons, List.foldlM_cons, List.foldlM_cons]
    unfold levelStep
    simp only [h]
    cases step s w with
    | error e => rfl
    | ok r =>
      simp only [Except.map, py_ok_bind]
      have := ih r.1 (acc ++ r.2)
      rw [List.map_append] at this
      exact this

theorem levels_map {σ τ : Type} {step : σ → Item K → Py (σ × List (Item K))} {step' : τ → Item K → Py (τ × List (Item K))}
    {φ : σ → τ} {ψ : Item K → Item K}
    (h : ∀ s w, step' (φ s) (ψ w) = (step s w).map fun r => (φ r.1, r.2.map ψ)) :
    ∀ (n : Nat) (s : σ) (l : List (Item K)), levels step' n (φ s) (l.map ψ) = (levels step n s l).map φ := by
  intro n
  induction n with
  | zero =>
    intro s l
    cases l <;> rfl
  | succ n ih =>
    intro s l
    cases l with
    | nil => rfl
    | cons w ws =>
      rw [List.map_cons, levels, levels, ← List.map_cons]
      have := levelFold_map h (w :: ws) s []
      rw [List.map_nil] at this
      rw [this]
      cases (w :: ws).foldlM (levelStep step) (s, []) with
      | error e => rfl
      | ok r => exact ih r.1 r.2

/-! ### frequencies -/

/-- the frequencies of `f'` are `e` times those of `f` -/
def TimesF (e : K) (f f' : Dict Str K) : Prop := ∀ id, f'.getD id 0 = e * f.getD id 0

theorem TimesF.one (f : Dict Str K) : TimesF 1 f f := fun _ => (one_mul _).symm

theorem timesF (e : K) (f : Dict Str K) : TimesF e f (times e f) := fun id => getD_times e f id

theorem accumulated_times {e : K} {f f' : Dict Str K} (hf : TimesF e f f') (l : List (EEdge K)) :
    accumulated f' l = (accumulated f l).map (e * ·) := by
  unfold accumulated
  have key : ∀ (l : List (EEdge K)) (a : K), l.foldlM (accStep f') (e * a) = (l.foldlM (accStep f) a).map (e * ·) := by
    intro l
    induction l with
    | nil => intro a; rfl
    | cons b t ih =>
      intro a
      rw [List.foldlM_cons, List.foldlM_cons]
      unfold accStep
      cases lineId b.j with
      | error _ => rfl
      | ok id =>
        simp only [py_ok_bind]
        show t.foldlM (accStep f') (e * a + f'.getD id 0) = (t.foldlM (accStep f) (a + f.getD id 0)).map (e * ·)
        rw [hf, ← mul_add]
        exact ih _
  have := key l 0
  rwa [mul_zero] at this

theorem pyDiv_times {e : K} (he : e ≠ 0) (a b : K) : pyDiv (e * a) (e * b) = pyDiv a b := by
  unfold pyDiv
  rw [mul_div_mul_left a b he]
  simp [he]

theorem takeLine_times {e c : K} (he : e ≠ 0) {f f' : Dict Str K} (hf : TimesF e f f') (succ : ENode K → List (EEdge K))
    (s : StopNode K) (n : RouteNode K) (pax : K) :
    takeLine f' succ s n (c * pax) = (takeLine f succ s n pax).map (c * ·) := by
  unfold takeLine
  rw [accumulated_times hf]
  cases accumulated f (succ (.stop s)) with
  | error _ => rfl
  | ok a =>
    simp only [Except.map, py_ok_bind]
    rw [hf, pyDiv_times he]
    cases pyDiv (f.getD n.route.id 0) a with
    | error _ => rfl
    | ok q => simp only [py_ok_bind, py_pure, mul_assoc]

/-! ### the loading -/

def Loads.times (c : K) (t : Loads K) : Loads K := ⟨Sidermit.times c t.z, Sidermit.times c t.v, Sidermit.times c t.load⟩

theorem visit_times {e c : K} (he : e ≠ 0) {f f' : Dict Str K} (hf : TimesF e f f') (succ : ENode K → List (EEdge K))
    (t : Loads K) (w : Item K) :
    visit f' succ (t.times c) (w.scale c) = (visit f succ t w).map fun r => (r.1.times c, c * r.2) := by
  obtain ⟨i, j, pax⟩ := w
  unfold visit Item.scale
  cases i with
  | city a => cases j <;> rfl
  | stop s =>
    cases j with
    | route n =>
      simp only
      rw [takeLine_times he hf]
      cases takeLine f succ s n pax with
      | error _ => rfl
      | ok q =>
        simp only [Except.map, py_ok_bind, py_pure, Loads.times, addTo_times]
    | _ => rfl
  | route n =>
    cases j with
    | city a => rfl
    | stop s => simp only [Except.map, Loads.times, addTo_times]
    | route m => simp only [Except.map, Loads.times, addTo_times]

theorem loadStep_times {e c : K} (he : e ≠ 0) {f f' : Dict Str K} (hf : TimesF e f f') (succ : ENode K → List (EEdge K))
    (dest : CityNode K) (t : Loads K) (w : Item K) :
    loadStep f' succ dest (t.times c) (w.scale c) =
      (loadStep f succ dest t w).map fun r => (r.1.times c, r.2.map (Item.scale c)) := by
  unfold loadStep
  rw [visit_times he hf]
  cases visit f succ t w with
  | error _ => rfl
  | ok r =>
    simp only [Except.map, py_ok_bind, py_pure]
    have hj : (w.scale c).j = w.j := rfl
    rw [hj]
    split
    · rfl
    · rw [follow_scale]

/-- the pairs with `c` times the trips -/
def timesTrips (c : K) (l : List (ODResult K × Dict (StopNode K) K)) : List (ODResult K × Dict (StopNode K) K) :=
  l.map fun p => (p.1.scale c, p.2)

theorem loadStop_times {e c : K} (he : e ≠ 0) (hc : c ≠ 0) {f f' : Dict Str K} (hf : TimesF e f f') (n : Nat) (r : ODResult K)
    (share : Dict (StopNode K) K) (t : Loads K) (s : StopNode K) :
    loadStop n f' (r.scale c) share (t.times c) s = (loadStop n f r share t s).map (Loads.times c) := by
  unfold loadStop
  have hv : (r.scale c).vij * share.getD s 0 / 100 = c * (r.vij * share.getD s 0 / 100) := by
    show c * r.vij * share.getD s 0 / 100 = _
    ring
  simp only [hv, mul_eq_zero, hc, false_or]
  split
  · rfl
  · have h1 : (r.scale c).res = r.res := rfl
    have h2 : (r.scale c).dest = r.dest := rfl
    rw [h1, h2, follow_scale]
    exact levels_map (loadStep_times he hf r.res.succ r.dest) n t _

theorem foldlM_times {α β σ τ : Type} {step : σ → α → Py σ} {step' : τ → β → Py τ} {φ : σ → τ} {ψ : α → β}
    (h : ∀ s a, step' (φ s) (ψ a) = (step s a).map φ) :
    ∀ (l : List α) (s : σ), (l.map ψ).foldlM step' (φ s) = (l.foldlM step s).map φ := by
  intro l
  induction l with
  | nil => intro s; rfl
  | cons a t ih =>
    intro s
    rw [List.map_cons, List.foldlM_cons, List.foldlM_cons, h]
    cases step s a with
    | error _ => rfl
    | ok s' => exact ih s'

theorem loadAll_times {e c : K} (he : e ≠ 0) (hc : c ≠ 0) {f f' : Dict Str K} (hf : TimesF e f f') (n : Nat)
    (l : List (ODResult K × Dict (StopNode K) K)) :
    (timesTrips c l).foldlM (loadPair n f') ⟨[], [], []⟩ = (l.foldlM (loadPair n f) ⟨[], [], []⟩).map (Loads.times c) := by
  refine foldlM_times (φ := Loads.times c) (ψ := fun p => (p.1.scale c, p.2)) ?_ l ⟨[], [], []⟩
  intro t p
  unfold loadPair
  have := foldlM_times (φ := Loads.times c) (ψ := id) (step := loadStop n f p.1 p.2)
    (step' := loadStop n f' (p.1.scale c) p.2) (fun t s => loadStop_times he hc hf n p.1 p.2 t s) (Dict.keys p.1.paths) t
  rw [List.map_id] at this
  exact this

theorem perVehicle_times (f : Dict Str K) (c : K) (d : Dict (LoadKey K) K) :
    perVehicle f (times c d) = times c (perVehicle f d) := by
  unfold perVehicle times
  rw [List.map_map, List.map_map]
  apply List.map_congr_left
  intro p _
  simp only [Function.comp]
  split
  · rfl
  · rw [mul_div_assoc]

/-- `c` times the trips: `c` times the tables -/
theorem getLoads_times {c : K} (hc : c ≠ 0) (n : Nat) (f : Dict Str K) (l : List (ODResult K × Dict (StopNode K) K)) :
    getLoads n f (timesTrips c l) = (getLoads n f l).map (Loads.times c) := by
  unfold getLoads
  rw [loadAll_times one_ne_zero hc (TimesF.one f)]
  cases l.foldlM (loadPair n f) ⟨[], [], []⟩ with
  | error _ => rfl
  | ok t => simp only [Except.map, py_ok_bind, py_pure, Loads.times, perVehicle_times]

theorem perVehicle_both {c e : K} (he : e ≠ 0) {f f' : Dict Str K} (hf : TimesF e f f') {d : Dict (LoadKey K) K}
    (hd : ∀ k ∈ Dict.keys d, f.getD k.1 0 ≠ 0) : perVehicle f' (times c d) = times (c / e) (perVehicle f d) := by
  unfold perVehicle times
  rw [List.map_map, List.map_map]
  apply List.map_congr_left
  intro p hp
  have h := hd p.1 (List.mem_map.2 ⟨p, hp, rfl⟩)
  simp only [Function.comp, hf p.1.1, mul_eq_zero, he, h, or_false, if_false]
  rw [mul_div_mul_comm]

/-- `c` times the trips and `e` times the frequencies: `c / e` times the tables, if all the lines in them run -/
theorem getLoads_both {c e : K} (hc : c ≠ 0) (he : e ≠ 0) {f f' : Dict Str K} (hf : TimesF e f f') (n : Nat)
    {l : List (ODResult K × Dict (StopNode K) K)} {t : Loads K} (ht : getLoads n f l = .ok t)
    (hrun : ∀ k, k ∈ Dict.keys t.z ∨ k ∈ Dict.keys t.v ∨ k ∈ Dict.keys t.load → f.getD k.1 0 ≠ 0) :
    getLoads n f' (timesTrips c l) = .ok (t.times (c / e)) := by
  unfold getLoads at ht ⊢
  rw [loadAll_times he hc hf]
  cases hraw : l.foldlM (loadPair n f) ⟨[], [], []⟩ with
  | error _ => rw [hraw] at ht; cases ht
  | ok t0 =>
    rw [hraw] at ht
    simp only [py_ok_bind, py_pure, Except.ok.injEq] at ht
    subst ht
    have hk : ∀ d : Dict (LoadKey K) K, Dict.keys (perVehicle f d) = Dict.keys d := by
      intro d
      unfold Dict.keys perVehicle
      rw [List.map_map]
      apply List.map_congr_left
      intro p _
      simp only [Function.comp]
      split <;> rfl
    simp only [hk] at hrun
    simp only [Except.map, py_ok_bind, py_pure, Loads.times]
    rw [perVehicle_both he hf fun k h => hrun k (Or.inl h), perVehicle_both he hf fun k h => hrun k (Or.inr (Or.inl h)),
      perVehicle_both he hf fun k h => hrun k (Or.inr (Or.inr h))]

/-! ### the vector of frequencies -/

theorem foptToF_times (c : K) (lines : List Str) (y : List K) :
    foptToF lines (y.map (c * ·)) = (foptToF lines y).map (times c) := by
  unfold foptToF
  have hz : (y.map (c * ·)).zipIdx = y.zipIdx.map fun p => (c * p.1, p.2) := by
    rw [List.zipIdx_map]
    rfl
  rw [hz]
  refine foldlM_times (φ := times c) (ψ := fun p : K × Nat => (c * p.1, p.2)) ?_ y.zipIdx []
  intro s p
  unfold foptStep
  cases lines[p.2]? with
  | none => rfl
  | some id => exact congrArg Except.ok (set_times c s id p.1)

end Sidermit
