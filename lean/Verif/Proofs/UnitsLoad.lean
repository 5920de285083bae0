import Verif.Proofs.UnitsSearch
import Verif.Proofs.Scale

/-!
The shares of the stops and the loads of the lines in the second description (Spec/Units).
-/

set_option linter.unusedSectionVars false

namespace Sidermit

variable {K : Type} [Field K] [LinearOrder K] [IsStrictOrderedRing K] [PyMath K] {u : Terms K}

/-! ### shares -/

/-- a table of the stops -/
def Terms.shares (u : Terms K) (d : Dict (StopNode K) K) : Dict (StopNode K) K := Dict.via u.stop (fun y => y) d

theorem shares_set (h : u.Shape) (d : Dict (StopNode K) K) (s : StopNode K) (x : K) :
    (u.shares d).set (u.stop s) x = u.shares (d.set s x) := Dict.set_via (ψ := fun y : K => y) h.stop_inj d s x

theorem shares_get (h : u.Shape) (d : Dict (StopNode K) K) (s : StopNode K) :
    (u.shares d).getD (u.stop s) 0 = d.getD s 0 := Dict.getD_via (ψ := fun y : K => y) h.stop_inj d s 0

theorem stopPair_terms (h : u.Shape) (l : List (StopNode K)) :
    stopPair (l.map u.stop) = ((stopPair l).1.map u.stop, (stopPair l).2.map u.stop) := by
  unfold stopPair
  refine foldl_image (φ := fun a : Option (StopNode K) × Option (StopNode K) => (a.1.map u.stop, a.2.map u.stop))
    (s := (none, none)) ?_ l
  rintro ⟨a, b⟩ s
  unfold stopPairStep
  show (if (u.mode s.mode).d = 1 then _ else _) = _
  rw [h.d]
  split
  · cases a <;> rfl
  · rfl

theorem pyDiv_len (a b : K) : PyRel (fun x y => y = u.len * x) (pyDiv a b) (pyDiv (u.len * a) b) := by
  unfold pyDiv
  split
  · exact .error _
  · exact .ok (mul_div_assoc _ _ _)

theorem positionLoop_terms (h : u.Shape) (zone d : K) : ∀ (n i : Nat) (p : K),
    positionLoop (u.len * zone) (u.len * d) n i (u.len * p) = (u.len * (positionLoop zone d n i p).1, (positionLoop zone d n i p).2) := by
  intro n
  induction n with
  | zero => intro i p; rfl
  | succ n ih =>
    intro i p
    unfold positionLoop
    have hp : (if i = 0 then u.len * zone / 2 else u.len * p + u.len * zone) = u.len * (if i = 0 then zone / 2 else p + zone) := by
      split
      · rw [mul_div_assoc]
      · rw [mul_add]
    generalize (if i = 0 then zone / 2 else p + zone) = q at hp
    simp only [hp, gt_iff_lt, mul_lt_mul_iff_right₀ h.len]
    by_cases hq : d < q
    · rw [if_pos hq, if_pos hq]
    · rw [if_neg hq, if_neg hq]
      exact ih _ _

theorem sharesAfterLoop_terms (h : u.Shape) (s1 s2 : StopNode K) (p d : K) (r : K × Bool) :
    PyRel (fun a b => b = u.shares a) (sharesAfterLoop s1 s2 p d r)
      (sharesAfterLoop (u.stop s1) (u.stop s2) (u.len * p) (u.len * d) (u.len * r.1, r.2)) := by
  obtain ⟨q, left⟩ := r
  have hend : ∀ a, PyRel (fun x y => y = u.shares x) (if q < d then .ok (Dict.set a s1 100) else .ok a : Py (Dict (StopNode K) K))
      (if u.len * q < u.len * d then .ok (Dict.set (u.shares a) (u.stop s1) 100) else .ok (u.shares a)) := by
    intro a
    simp only [mul_lt_mul_iff_right₀ h.len]
    split
    · exact .ok (shares_set h a s1 100)
    · exact .ok rfl
  cases left with
  | false => exact hend []
  | true =>
    have e : 2 * (u.len * d) + (u.len * q - u.len * d) = u.len * (2 * d + (q - d)) := by ring
    show PyRel _ ((pyDiv (2 * d + (q - d)) p >>= fun x => .ok _) >>= fun a => if q < d then _ else _)
      ((pyDiv (2 * (u.len * d) + (u.len * q - u.len * d)) (u.len * p) >>= fun x => .ok _) >>= fun a => if u.len * q < u.len * d then _ else _)
    rw [e, h.div_len]
    refine PyRel.bind (R := fun x y => y = u.shares x) (PyRel.bind (PyRel.refl _) ?_) ?_
    · rintro _ x rfl
      refine .ok ?_
      have h1 := shares_set h ([] : Dict (StopNode K) K) s1 (x * 100)
      rw [← shares_set h, ← h1]
      rfl
    · rintro a _ rfl
      exact hend a

theorem sharesFirst_terms (h : u.Shape) (s1 s2 : StopNode K) (l1 l2 p vp a b : K) :
    PyRel (fun x y => y = u.shares x) (sharesFirst s1 s2 l1 l2 p vp a b)
      (sharesFirst (u.stop s1) (u.stop s2) l1 l2 (u.len * p) (u.len * vp) a b) := by
  unfold sharesFirst
  refine PyRel.bind (PyRel.refl _) ?_
  rintro _ ratio rfl
  rw [mul_assoc]
  refine PyRel.bind (pyDiv_len _ _) ?_
  rintro d _ rfl
  have hc : u.len * d ≥ u.len * p / 2 ↔ d ≥ p / 2 := by
    rw [mul_div_assoc, ge_iff_le, mul_le_mul_iff_right₀ h.len]
  simp only [hc]
  split
  · exact .ok rfl
  · show PyRel _ _ (pyDiv (u.len * p) (((u.mode s2.mode).d : Int) : K) >>= fun zone => sharesAfterLoop (u.stop s1) (u.stop s2) (u.len * p) (u.len * d)
      (positionLoop zone (u.len * d) ((u.mode s2.mode).d / 2).toNat 0 0))
    rw [h.d]
    refine PyRel.bind (pyDiv_len _ _) ?_
    rintro zone _ rfl
    have := positionLoop_terms h zone d (s2.mode.d / 2).toNat 0 0
    rw [mul_zero] at this
    rw [this]
    exact sharesAfterLoop_terms h s1 s2 p d _

theorem sharesSecond_terms (h : u.Shape) (s1 s2 : StopNode K) (l1 l2 p vp a b : K) :
    PyRel (fun x y => y = u.shares x) (sharesSecond s1 s2 l1 l2 p vp a b)
      (sharesSecond (u.stop s1) (u.stop s2) l1 l2 (u.len * p) (u.len * vp) a b) := by
  unfold sharesSecond
  refine PyRel.bind (PyRel.refl _) ?_
  rintro _ ratio rfl
  rw [mul_assoc]
  refine PyRel.bind (pyDiv_len _ _) ?_
  rintro d _ rfl
  show PyRel _ _ (pyDiv (u.len * p) (((u.mode s2.mode).d : Int) : K) >>= _)
  rw [h.d]
  refine PyRel.bind (pyDiv_len _ _) ?_
  rintro zone _ rfl
  have hc : u.len * d ≥ u.len * zone * (1 / 2) ↔ d ≥ zone * (1 / 2) := by
    rw [mul_assoc, ge_iff_le, mul_le_mul_iff_right₀ h.len]
  simp only [hc]
  split
  · exact .ok rfl
  · have : u.len * zone * (1 / 2) - u.len * d = u.len * (zone * (1 / 2) - d) := by ring
    rw [this, h.div_len]
    refine PyRel.bind (PyRel.refl _) ?_
    rintro _ q rfl
    refine .ok ?_
    have h1 := shares_set h ([] : Dict (StopNode K) K) s1 (q * 100)
    rw [← shares_set h, ← h1]
    rfl

theorem sharesOf_terms (h : u.Shape) (stops : List (StopNode K)) {label label' : ENode K → WithTop K}
    (hl : ∀ x, label' (u.enode x) = label x) (p vp a b : K) :
    PyRel (fun x y => y = u.shares x) (sharesOf stops label p vp a b)
      (sharesOf (stops.map u.stop) label' (u.len * p) (u.len * vp) a b) := by
  unfold sharesOf
  rw [stopPair_terms h]
  obtain ⟨s1, s2⟩ := stopPair stops
  cases s1 with
  | none =>
    cases s2 with
    | none => exact .ok rfl
    | some s2 => exact .ok rfl
  | some s1 =>
    cases s2 with
    | none => exact .ok rfl
    | some s2 =>
      show PyRel _ (sharesTwo s1 s2 (label (.stop s1)) (label (.stop s2)) p vp a b)
        (sharesTwo (u.stop s1) (u.stop s2) (label' (u.enode (.stop s1))) (label' (u.enode (.stop s2))) (u.len * p) (u.len * vp) a b)
      rw [hl, hl]
      unfold sharesTwo
      cases label (.stop s1) with
      | top => exact .error _
      | coe l1 =>
        cases label (.stop s2) with
        | top => exact .error _
        | coe l2 =>
          show PyRel _ (if l1 ≤ l2 then _ else _) (if l1 ≤ l2 then _ else if (u.mode s2.mode).d % 2 = 1 then _ else _)
          rw [h.d]
          split
          · exact sharesFirst_terms h s1 s2 l1 l2 p vp a b
          · split
            · exact .ok rfl
            · exact sharesSecond_terms h s1 s2 l1 l2 p vp a b

theorem getAssignment_terms (h : u.Shape) {l l' : List (ODResult K)} (hl : List.Forall₂ u.Pair l l') (p vp a b : K) :
    PyRel (List.Forall₂ fun x y => y = u.shares x) (getAssignment l p vp a b) (getAssignment l' (u.len * p) (u.len * vp) a b) := by
  unfold getAssignment
  refine PyRel.mapM ?_ hl
  intro e e' he
  have : Dict.keys e'.paths = (Dict.keys e.paths).map u.stop := by
    rw [he.paths]
    exact Dict.keys_via e.paths
  rw [this]
  exact sharesOf_terms h _ he.res.label p vp a b

/-! ### loads -/

/-- a key of the tables of loads -/
def Terms.key (u : Terms K) (k : LoadKey K) : LoadKey K := (u.lineId k.1, k.2.1, u.stop k.2.2)

theorem Terms.Shape.key_inj (h : u.Shape) : Function.Injective u.key := by
  rintro ⟨a, b, c⟩ ⟨a', b', c'⟩ e
  simp only [Terms.key, Prod.mk.injEq] at e
  rw [h.lineIds e.1, e.2.1, h.stop_inj e.2.2]

/-- a table of loads -/
def Terms.table (u : Terms K) (d : Dict (LoadKey K) K) : Dict (LoadKey K) K := Dict.via u.key (fun y => y) d

theorem table_get (h : u.Shape) (d : Dict (LoadKey K) K) (a : Str) (dir : Dir) (s : StopNode K) :
    (u.table d).getD (u.lineId a, dir, u.stop s) 0 = d.getD (a, dir, s) 0 :=
  Dict.getD_via (ψ := fun y : K => y) h.key_inj d (a, dir, s) 0

theorem addTo_terms (h : u.Shape) (d : Dict (LoadKey K) K) (a : Str) (dir : Dir) (s : StopNode K) (x : K) :
    addTo (u.table d) (u.lineId a, dir, u.stop s) x = u.table (addTo d (a, dir, s) x) := by
  unfold addTo
  rw [table_get h]
  exact Dict.set_via (ψ := fun y : K => y) h.key_inj d (a, dir, s) _

/-- the three tables -/
def Terms.loads (u : Terms K) (t : Loads K) : Loads K := ⟨u.table t.z, u.table t.v, u.table t.load⟩

/-- an element of the list of paths -/
def Terms.item (u : Terms K) (w : Item K) : Item K := ⟨u.enode w.i, u.enode w.j, w.pax⟩

theorem accumulated_terms (h : u.Shape) (f : Dict Str K) (l : List (EEdge K)) :
    accumulated (u.frequencies f) (l.map u.edge) = accumulated f l := by
  unfold accumulated
  refine PyRel.to_eq (PyRel.foldlM ?_ (forall₂_image u.edge l) rfl)
  rintro s s' e _ rfl rfl
  unfold accStep
  show PyRel _ _ (lineId (u.enode e.j) >>= _)
  cases e.j with
  | route n =>
    show PyRel _ (.ok (s' + f.getD n.route.id 0)) (.ok (s' + (u.frequencies f).getD (u.lineId n.route.id) 0))
    rw [frequency_terms h]
    exact PyRel.refl _
  | _ => exact .error _

theorem takeLine_terms (h : u.Shape) (f : Dict Str K) {succ succ' : ENode K → List (EEdge K)}
    (hs : ∀ x, succ' (u.enode x) = (succ x).map u.edge) (s : StopNode K) (n : RouteNode K) (pax : K) :
    takeLine (u.frequencies f) succ' (u.stop s) (u.onLine n) pax = takeLine f succ s n pax := by
  unfold takeLine
  have h1 : succ' (.stop (u.stop s)) = (succ (.stop s)).map u.edge := hs (.stop s)
  rw [h1, accumulated_terms h]
  show (accumulated f _ >>= fun acum => pyDiv ((u.frequencies f).getD (u.lineId n.route.id) 0) acum >>= _) = _
  rw [frequency_terms h]

theorem visit_terms (h : u.Shape) (f : Dict Str K) {succ succ' : ENode K → List (EEdge K)}
    (hs : ∀ x, succ' (u.enode x) = (succ x).map u.edge) (t : Loads K) (w : Item K) :
    PyRel (fun a b => b = (u.loads a.1, a.2)) (visit f succ t w) (visit (u.frequencies f) succ' (u.loads t) (u.item w)) := by
  obtain ⟨i, j, pax⟩ := w
  cases i with
  | city c => cases j <;> exact .ok rfl
  | stop s =>
    cases j with
    | route n =>
      show PyRel _ (takeLine f succ s n pax >>= _) (takeLine (u.frequencies f) succ' (u.stop s) (u.onLine n) pax >>= _)
      rw [takeLine_terms h f hs]
      refine PyRel.bind (PyRel.refl _) ?_
      rintro _ dis rfl
      refine .ok ?_
      have := addTo_terms h t.z n.route.id n.dir s dis
      simp only [Terms.loads, ← this]
      rfl
    | _ => exact .ok rfl
  | route n =>
    cases j with
    | city c => exact .ok rfl
    | stop s =>
      refine .ok ?_
      have := addTo_terms h t.v n.route.id n.dir s pax
      simp only [Terms.loads, ← this]
      rfl
    | route m =>
      refine .ok ?_
      have := addTo_terms h t.load n.route.id n.dir n.stop pax
      simp only [Terms.loads, ← this]
      rfl

theorem stopOf_terms (h : u.Shape) (d : CityNode K) (x : ENode K) : stopOf (u.city d) (u.enode x) = stopOf d x := by
  cases x with
  | stop s =>
    show decide (u.city s.city = u.city d) = decide (s.city = d)
    exact decide_eq_decide.2 h.city_inj.eq_iff
  | _ => rfl

theorem follow_terms {succ succ' : ENode K → List (EEdge K)} (hs : ∀ x, succ' (u.enode x) = (succ x).map u.edge) (x : ENode K)
    (pax : K) : follow succ' (u.enode x) pax = (follow succ x pax).map u.item := by
  unfold follow
  rw [hs, List.map_map, List.map_map]
  rfl

theorem loadStep_terms (h : u.Shape) (f : Dict Str K) {succ succ' : ENode K → List (EEdge K)}
    (hs : ∀ x, succ' (u.enode x) = (succ x).map u.edge) (dest : CityNode K) (t : Loads K) (w : Item K) :
    loadStep (u.frequencies f) succ' (u.city dest) (u.loads t) (u.item w) =
      (loadStep f succ dest t w).map fun r => (u.loads r.1, r.2.map u.item) := by
  refine PyRel.to_map ?_
  unfold loadStep
  refine PyRel.bind (visit_terms h f hs t w) ?_
  rintro r _ rfl
  refine .ok ?_
  show (u.loads r.1, if stopOf (u.city dest) (u.enode w.j) then [] else follow succ' (u.enode w.j) r.2) = _
  rw [stopOf_terms h, follow_terms hs]
  simp only
  split <;> rfl

/-- a pair with its shares -/
def Terms.Assigned (u : Terms K) (p p' : ODResult K × Dict (StopNode K) K) : Prop := u.Pair p.1 p'.1 ∧ p'.2 = u.shares p.2

theorem Assigned.keys {p p' : ODResult K × Dict (StopNode K) K} (hp : u.Assigned p p') :
    Dict.keys p'.1.paths = (Dict.keys p.1.paths).map u.stop := by
  rw [hp.1.paths]
  exact Dict.keys_via p.1.paths

theorem loadPair_terms (h : u.Shape) (n : Nat) (f : Dict Str K) {p p' : ODResult K × Dict (StopNode K) K} (hp : u.Assigned p p')
    (t : Loads K) : PyRel (fun a b => b = u.loads a) (loadPair n f t p) (loadPair n (u.frequencies f) (u.loads t) p') := by
  unfold loadPair
  rw [Assigned.keys hp]
  refine PyRel.foldlM ?_ (forall₂_image u.stop _) rfl
  rintro t _ s _ rfl rfl
  unfold loadStop
  rw [hp.2, hp.1.vij, hp.1.dest, shares_get h]
  simp only
  split
  · exact .ok rfl
  · refine PyRel.of_map ?_
    have h1 : follow p'.1.res.succ (.stop (u.stop s)) (p.1.vij * p.2.getD s 0 / 100) = (follow p.1.res.succ (.stop s)
      (p.1.vij * p.2.getD s 0 / 100)).map u.item := follow_terms hp.1.res.succ (.stop s) _
    rw [h1]
    exact levels_map (fun t w => loadStep_terms h f hp.1.res.succ p.1.dest t w) n t _

theorem perVehicle_terms (h : u.Shape) (f : Dict Str K) (d : Dict (LoadKey K) K) :
    perVehicle (u.frequencies f) (u.table d) = u.table (perVehicle f d) := by
  unfold perVehicle Terms.table Dict.via
  rw [List.map_map, List.map_map]
  refine List.map_congr_left fun p _ => ?_
  simp only [Function.comp_apply, Terms.key]
  rw [frequency_terms h]
  split <;> rfl

theorem getLoads_terms (h : u.Shape) (n : Nat) (f : Dict Str K) {l l' : List (ODResult K × Dict (StopNode K) K)}
    (hl : List.Forall₂ u.Assigned l l') :
    PyRel (fun a b => b = u.loads a) (getLoads n f l) (getLoads n (u.frequencies f) l') := by
  unfold getLoads
  refine PyRel.bind (R := fun a b => b = u.loads a) (PyRel.foldlM ?_ hl rfl) ?_
  · rintro t _ p p' rfl hp
    exact loadPair_terms h n f hp t
  · rintro t _ rfl
    refine .ok ?_
    simp only [Terms.loads, perVehicle_terms h]

theorem mostLoaded_terms (h : u.Shape) (d : Dict (LoadKey K) K) : mostLoaded (u.table d) = u.frequencies (mostLoaded d) := by
  unfold mostLoaded
  refine foldl_image (φ := u.frequencies) (s := []) ?_ d
  intro m p
  unfold maxStep
  show Dict.set (u.frequencies m) (u.lineId p.1.1) (if p.2 > (u.frequencies m).getD (u.lineId p.1.1) 0 then p.2 else
    (u.frequencies m).getD (u.lineId p.1.1) 0) = _
  rw [frequency_terms h]
  exact Dict.set_via (ψ := fun y : K => y) h.lineIds m p.1.1 _

end Sidermit
