import Verif.Proofs.UnitsCost

/-!
The cost of the users in the second description (Spec/Units).
-/

set_option linter.unusedSectionVars false

namespace Sidermit

variable {K : Type} [Field K] [LinearOrder K] [IsStrictOrderedRing K] [PyMath K] {u : Terms K}

theorem lastIndex_terms (h : u.Shape) (l : List Int) (id : Int) : lastIndex (l.map u.nodeId) (u.nodeId id) = lastIndex l id := by
  unfold lastIndex
  rw [List.zipIdx_map]
  refine foldl_image (φ := fun y : Nat => y) (ψ := Prod.map u.nodeId _root_.id) ?_ l.zipIdx 0
  intro s p
  show (if u.nodeId p.1 = u.nodeId id then p.2 else s) = _
  simp only [h.nodeIds.eq_iff]

theorem guessDir_terms (h : u.Shape) (r : Route K) (a b : Int) :
    guessDir (u.route r) (u.nodeId a) (u.nodeId b) = guessDir r a b := by
  unfold guessDir
  show (if lastIndex (r.stopsI.map u.nodeId) (u.nodeId a) < lastIndex (r.stopsI.map u.nodeId) (u.nodeId b) then _ else _) = _
  rw [lastIndex_terms h, lastIndex_terms h]

theorem prevOf_terms (h : u.Shape) (x : ENodes K) (n : RouteNode K) :
    prevOf (u.enodes x) (u.onLine n) = (prevOf x n).map u.onLine := by
  unfold prevOf
  rw [entriesOf_terms]
  have hf := find?_image (ψ := u.entry) (p := fun e => decide (e.node = n)) (p' := fun e => decide (e.node = u.onLine n))
    (fun e => decide_eq_decide.2 (show u.onLine e.node = u.onLine n ↔ e.node = n from h.onLine_inj.eq_iff)) (entriesOf x)
  rw [hf]
  cases (entriesOf x).find? fun e => decide (e.node = n) <;> rfl

theorem waitPart_terms (h : u.Shape) (f : Dict Str K) {succ succ' : ENode K → List (EEdge K)}
    (hs : ∀ x, succ' (u.enode x) = (succ x).map u.edge) (c : Resources K) (w : Item K) :
    waitPart (u.frequencies f) succ' c (u.item w) = waitPart f succ c w := by
  obtain ⟨i, j, pax⟩ := w
  cases i with
  | stop s =>
    cases j with
    | route n =>
      have h1 : succ' (.stop (u.stop s)) = (succ (.stop s)).map u.edge := hs (.stop s)
      show (accumulated (u.frequencies f) (succ' (.stop (u.stop s))) >>= fun acum =>
        pyDiv ((u.frequencies f).getD (u.lineId n.route.id) 0) acum >>= fun q =>
        pyDiv acum (((u.mode n.route.mode).d : Int) : K) >>= fun hd =>
        pyDiv (pax * q * (u.mode s.mode).theta) hd >>= fun te => _) = _
      rw [h1, accumulated_terms h, frequency_terms h, h.d, h.theta]
      rfl
    | _ => rfl
  | _ => rfl

theorem ridePart_terms (h : u.Shape) (edges : List (EEdge K)) (c : Resources K) (w : Item K) (dis : K) :
    ridePart (edges.map u.edge) c (u.item w) dis = ridePart edges c w dis := by
  obtain ⟨i, j, pax⟩ := w
  cases i with
  | route n =>
    cases j with
    | route m =>
      have hf := find?_image (ψ := u.edge) (p := fun e => decide (e.i = .route n ∧ e.j = .route m))
        (p' := fun e => decide (e.i = u.enode (.route n) ∧ e.j = u.enode (.route m)))
        (fun e => decide_eq_decide.2 (and_congr (show u.enode e.i = _ ↔ _ from h.enode_inj.eq_iff)
          (show u.enode e.j = _ ↔ _ from h.enode_inj.eq_iff))) edges
      show (match (edges.map u.edge).find? fun e => decide (e.i = u.enode (.route n) ∧ e.j = u.enode (.route m)) with
        | some e => { c with tv := c.tv + dis * e.t }
        | none => c) = (match edges.find? fun e => decide (e.i = .route n ∧ e.j = .route m) with
        | some e => { c with tv := c.tv + dis * e.t }
        | none => c)
      rw [hf]
      cases edges.find? fun e => decide (e.i = .route n ∧ e.j = .route m) <;> rfl
    | _ => rfl
  | _ => rfl

theorem alightPart_terms (h : u.Keeps) (x : ENodes K) (dest : CityNode K) (v : Dict (LoadKey K) K) (c : Resources K) (w : Item K) (dis : K) :
    alightPart (u.enodes x) (u.city dest) (u.table v) c (u.item w) dis = alightPart x dest v c w dis := by
  obtain ⟨i, j, pax⟩ := w
  cases i with
  | route n =>
    cases j with
    | stop s =>
      show (match prevOf (u.enodes x) (u.onLine n) with
        | none => (.error .AttributeError : Py (Resources K))
        | some p => .ok { c with
            t := if u.city s.city ≠ u.city dest then c.t + dis else c.t
            tv := c.tv + (u.table v).getD (u.lineId n.route.id, guessDir (u.route n.route) p.stop.city.node.id (u.node n.stop.city.node).id, u.stop s) 0 *
              (1 / 2) * ((u.mode n.route.mode).t / 3600) * dis }) = (match prevOf x n with
        | none => (.error .AttributeError : Py (Resources K))
        | some p => .ok { c with
            t := if s.city ≠ dest then c.t + dis else c.t
            tv := c.tv + v.getD (n.route.id, guessDir n.route p.stop.city.node.id n.stop.city.node.id, s) 0 * (1 / 2) *
              (n.route.mode.t / 3600) * dis })
      rw [prevOf_terms h.toShape]
      cases prevOf x n with
      | none => rfl
      | some p =>
        show (Except.ok { c with
            t := if u.city s.city ≠ u.city dest then c.t + dis else c.t
            tv := c.tv + (u.table v).getD (u.lineId n.route.id, guessDir (u.route n.route) (u.node p.stop.city.node).id (u.node n.stop.city.node).id, u.stop s) 0 *
              (1 / 2) * ((u.mode n.route.mode).t / 3600) * dis } : Py (Resources K)) = _
        rw [h.id, h.id, guessDir_terms h.toShape, table_get h.toShape, h.t]
        simp only [ne_eq, h.city_inj.eq_iff]
    | _ => rfl
  | _ => rfl

theorem walkPart_terms (h : u.Shape) (c : Resources K) (w : Item K) : walkPart c (u.item w) = walkPart c w := by
  obtain ⟨i, j, pax⟩ := w
  cases i with
  | stop s =>
    cases j with
    | city d =>
      show ({ c with ta := c.ta + (u.mode s.mode).tat / 60 } : Resources K) = _
      rw [h.tat]
      rfl
    | _ => rfl
  | city d =>
    cases j with
    | stop s =>
      show ({ c with ta := c.ta + (u.mode s.mode).tat / 60 } : Resources K) = _
      rw [h.tat]
      rfl
    | _ => rfl
  | route n => cases j <;> rfl

theorem throughStep_terms (h : u.Keeps) (z v : Dict (LoadKey K) K) (w : Item K) (dis : K) (c : Resources K) (e : EEdge K) :
    throughStep (u.table z) (u.table v) (u.item w) dis c (u.edge e) = throughStep z v w dis c e := by
  obtain ⟨i, j, pax⟩ := w
  obtain ⟨a, b, t, q, ty⟩ := e
  cases i with
  | route p =>
    cases j with
    | route n =>
      cases b with
      | route m =>
        show (⟨c.ta, c.te, c.tv + passing (u.mode p.route.mode)
            ((u.table z).getD (u.lineId p.route.id, guessDir (u.route p.route) (u.node p.stop.city.node).id (u.node n.stop.city.node).id, u.stop n.stop) 0)
            ((u.table v).getD (u.lineId p.route.id, guessDir (u.route p.route) (u.node p.stop.city.node).id (u.node n.stop.city.node).id, u.stop n.stop) 0) *
            ((u.mode p.route.mode).t / 3600) * dis, c.t⟩ : Resources K) = _
        rw [h.id, h.id, guessDir_terms h.toShape, table_get h.toShape, table_get h.toShape, h.t]
        unfold passing
        rw [h.bya]
        rfl
      | _ => rfl
    | _ => rfl
  | _ => rfl

theorem userStep_terms (h : u.Keeps) (f : Dict Str K) (x : ExtGraph K) (z v : Dict (LoadKey K) K)
    {succ succ' : ENode K → List (EEdge K)} (hs : ∀ x, succ' (u.enode x) = (succ x).map u.edge) (dest : CityNode K)
    (c : Resources K) (w : Item K) :
    userStep (u.frequencies f) (u.ext x) (u.table z) (u.table v) succ' (u.city dest) c (u.item w) =
      (userStep f x z v succ dest c w).map fun r => (r.1, r.2.map u.item) := by
  have hv : userVisit (u.frequencies f) (u.ext x) (u.table z) (u.table v) succ' (u.city dest) c (u.item w) =
      userVisit f x z v succ dest c w := by
    unfold userVisit
    rw [waitPart_terms h.toShape f hs]
    refine PyRel.to_eq (PyRel.bind (PyRel.refl _) ?_)
    rintro _ r rfl
    show PyRel _ _ (alightPart (u.enodes x.nodes) (u.city dest) (u.table v) (ridePart (x.edges.map u.edge) r.1 (u.item w) r.2) (u.item w) r.2 >>= _)
    rw [ridePart_terms h.toShape, alightPart_terms h]
    refine PyRel.bind (PyRel.refl _) ?_
    rintro _ c' rfl
    refine .ok ?_
    rw [walkPart_terms h.toShape]
    have h1 : succ' (u.item w).j = (succ w.j).map u.edge := hs w.j
    have h2 := foldl_image (φ := fun y : Resources K => y) (fun s e => throughStep_terms h z v w r.2 s e) (succ w.j) (walkPart c' w)
    rw [h1, h2]
  refine PyRel.to_map ?_
  unfold userStep
  have hd : stopOf (u.city dest) (u.item w).i = stopOf dest w.i := stopOf_terms h.toShape dest w.i
  rw [hd, hv]
  split
  · exact .ok rfl
  · refine PyRel.bind (PyRel.refl _) ?_
    rintro _ r rfl
    refine .ok ?_
    have : follow succ' (u.item w).j r.2 = (follow succ w.j r.2).map u.item := follow_terms hs w.j r.2
    rw [this]

theorem firstAccess_terms (h : u.Shape) (vp : K) {p p' : ODResult K × Dict (StopNode K) K} (hp : u.Assigned p p') (s : StopNode K) :
    firstAccess (u.len * vp) p'.1 p'.2 (u.stop s) = firstAccess vp p.1 p.2 s := by
  unfold firstAccess
  rw [hp.2, hp.1.origin, shares_get h]
  show (pyDiv (p.2.getD s 0 / 100 * (u.node p.1.origin.node).width) (4 * (u.len * vp) * (((u.mode s.mode).d : Int) : K)) >>= fun q =>
    pure ((u.mode s.mode).tat / 60 + q)) = _
  rw [h.width, h.d, h.tat]
  have h1 : p.2.getD s 0 / 100 * (u.len * p.1.origin.node.width) = u.len * (p.2.getD s 0 / 100 * p.1.origin.node.width) := by ring
  have h2 : 4 * (u.len * vp) * (s.mode.d : K) = u.len * (4 * vp * (s.mode.d : K)) := by ring
  rw [h1, h2, h.div_len]

theorem userPair_terms (h : u.Keeps) (N : Nat) (f : Dict Str K) (x : ExtGraph K) (vp : K) (z v : Dict (LoadKey K) K)
    {p p' : ODResult K × Dict (StopNode K) K} (hp : u.Assigned p p') (c : Resources K) :
    PyRel (fun a b => b = a) (userPair N f x vp z v c p)
      (userPair N (u.frequencies f) (u.ext x) (u.len * vp) (u.table z) (u.table v) c p') := by
  unfold userPair
  rw [Assigned.keys hp]
  refine PyRel.foldlM ?_ (forall₂_image u.stop _) rfl
  rintro _ c s _ rfl rfl
  unfold userStop
  rw [firstAccess_terms h.toShape vp hp]
  have hv : p'.1.vij * p'.2.getD (u.stop s) 0 / 100 = p.1.vij * p.2.getD s 0 / 100 := by rw [hp.2, hp.1.vij, shares_get h.toShape]
  simp only [hv]
  split
  · exact .ok rfl
  · refine PyRel.bind (PyRel.refl _) ?_
    rintro _ a rfl
    have h1 : follow p'.1.res.succ (.stop (u.stop s)) (p.1.vij * p.2.getD s 0 / 100) = (follow p.1.res.succ (.stop s)
      (p.1.vij * p.2.getD s 0 / 100)).map u.item := follow_terms hp.1.res.succ (.stop s) _
    rw [h1, hp.1.dest]
    exact PyRel.of_map (levels_map (φ := fun y : Resources K => y)
      (fun c w => userStep_terms h f x z v hp.1.res.succ p.1.dest c w) N _ _)

theorem resourcesConsumer_terms (h : u.Keeps) (N : Nat) (f : Dict Str K) (x : ExtGraph K) (vp : K) (z v : Dict (LoadKey K) K)
    {l l' : List (ODResult K × Dict (StopNode K) K)} (hl : List.Forall₂ u.Assigned l l') :
    PyRel (fun a b => b = a) (resourcesConsumer N f x vp z v l)
      (resourcesConsumer N (u.frequencies f) (u.ext x) (u.len * vp) (u.table z) (u.table v) l') := by
  unfold resourcesConsumer
  refine PyRel.foldlM ?_ hl rfl
  rintro _ c p p' rfl hp
  exact userPair_terms h N f x vp z v hp c

theorem usersCost_terms (h : u.Bills) (N : Nat) (f : Dict Str K) (x : ExtGraph K) (pas : Passenger K) (z v : Dict (LoadKey K) K)
    {l l' : List (ODResult K × Dict (StopNode K) K)} (hl : List.Forall₂ u.Assigned l l') :
    PyRel (fun a b => b = u.money * a) (usersCost N f x pas z v l)
      (usersCost N (u.frequencies f) (u.ext x) (u.passenger pas) (u.table z) (u.table v) l') := by
  unfold usersCost
  refine PyRel.bind (resourcesConsumer_terms h.toKeeps N f x pas.va z v hl) ?_
  rintro _ c rfl
  refine .ok ?_
  unfold resourcesCost
  show c.ta * (u.money * pas.spa) + c.te * (u.money * pas.spw) + c.tv * (u.money * pas.spv) + c.t * pas.spt / 60 * (u.money * pas.spv) = _
  ring

end Sidermit
