import Verif.Proofs.UnitsLoad
import Verif.Proofs.Text

/-!
Constraints and costs in the second description (Spec/Units).
-/

set_option linter.unusedSectionVars false

namespace Sidermit

variable {K : Type} [Field K] [LinearOrder K] [IsStrictOrderedRing K] [PyMath K] {u : Terms K}

/-! ### sequences of nodes -/

theorem pairs_image {α β : Type} (φ : α → β) : ∀ l : List α, pairs (l.map φ) = (pairs l).map (Prod.map φ φ)
  | [] => rfl
  | [_] => rfl
  | a :: b :: t => by
    rw [List.map_cons, List.map_cons, pairs, pairs, ← List.map_cons, pairs_image φ (b :: t), List.map_cons]
    rfl

/-- the ends of an edge -/
def Terms.ends (u : Terms K) : Int × Int → Int × Int := Prod.map u.nodeId u.nodeId

theorem Terms.Shape.ends_inj (h : u.Shape) : Function.Injective u.ends := h.nodeIds.prodMap h.nodeIds

theorem edgeIds_terms (h : u.Shape) (g : Graph K) : (u.graph g).edgeIds = g.edgeIds.map u.ends := by
  unfold Graph.edgeIds
  rw [List.map_filterMap]
  show g.edges.filterMap _ = _
  congr 1
  funext e
  show (match (g.nodes.map u.node)[e.node1]?, (g.nodes.map u.node)[e.node2]? with
    | some a, some b => some (a.id, b.id)
    | _, _ => none) = _
  rw [List.getElem?_map, List.getElem?_map]
  cases g.nodes[e.node1]? with
  | none => rfl
  | some a =>
    cases g.nodes[e.node2]? with
    | none => rfl
    | some b =>
      show some ((u.node a).id, (u.node b).id) = some (u.nodeId a.id, u.nodeId b.id)
      rw [h.id, h.id]

/-! ### constraints -/

theorem kConstrains_terms (h : u.Keeps) (routes : List (Route K)) (most : Dict Str K) :
    kConstrains (routes.map u.route) (u.frequencies most) = kConstrains routes most := by
  unfold kConstrains
  rw [List.map_map]
  refine List.map_congr_left fun r _ => ?_
  show (u.frequencies most).getD (u.lineId r.id) 0 - (u.mode r.mode).kmax = _
  rw [frequency_terms h.toShape, h.kmax]

theorem crossStep_terms (h : u.Shape) (e : Int × Int) (q sum : K) (p : Int × Int) :
    crossStep (u.ends e) q sum (u.ends p) = crossStep e q sum p := by
  unfold crossStep
  have hi : ∀ a b : Int, showInt (u.nodeId a) = showInt (u.nodeId b) ↔ showInt a = showInt b := fun a b =>
    ⟨fun e => by rw [h.nodeIds (showInt_injective e)], fun e => by rw [showInt_injective e]⟩
  show (if showInt (u.nodeId e.1) = showInt (u.nodeId p.1) ∧ showInt (u.nodeId e.2) = showInt (u.nodeId p.2) then _ else _) = _
  simp only [hi]

theorem crossFold_terms (h : u.Shape) (e : Int × Int) (q sum : K) (l : List Int) :
    (pairs (l.map u.nodeId)).foldl (crossStep (u.ends e) q) sum = (pairs l).foldl (crossStep e q) sum := by
  rw [pairs_image]
  exact foldl_image (φ := fun y : K => y) (fun s p => crossStep_terms h e q s p) (pairs l) sum

theorem flowStep_terms (h : u.Shape) (m : Mode K) (f : Dict Str K) (e : Int × Int) (sum : K) (r : Route K) :
    flowStep (u.mode m) (u.frequencies f) (u.ends e) sum (u.route r) = flowStep m f e sum r := by
  unfold flowStep
  show (if u.mode r.mode = u.mode m then if (u.frequencies f).getD (u.lineId r.id) 0 ≠ 0 then
    (pairs (r.nodesR.map u.nodeId)).foldl (crossStep (u.ends e) ((u.frequencies f).getD (u.lineId r.id) 0 / (((u.mode m).d : Int) : K)))
      ((pairs (r.nodesI.map u.nodeId)).foldl (crossStep (u.ends e) ((u.frequencies f).getD (u.lineId r.id) 0 / (((u.mode m).d : Int) : K))) sum)
    else sum else sum) = _
  rw [frequency_terms h, h.d, crossFold_terms h, crossFold_terms h]
  simp only [h.modes.eq_iff]

theorem fmaxConstrains_terms (h : u.Keeps) (g : Graph K) (routes : List (Route K)) (modes : List (Mode K)) (f : Dict Str K) :
    fmaxConstrains (u.graph g) (routes.map u.route) (modes.map u.mode) (u.frequencies f) = fmaxConstrains g routes modes f := by
  unfold fmaxConstrains
  rw [edgeIds_terms h.toShape]
  refine PyRel.to_eq (PyRel.bind (PyRel.mapM (S := fun a b => b = id a) ?_ (forall₂_image u.ends _)) ?_)
  · rintro e _ rfl
    unfold fmaxEdge
    refine (PyRel.mapM (S := fun a b => b = id a) ?_ (forall₂_image u.mode modes)).mono fun a b hab => ?_
    · rintro m _ rfl
      unfold fmaxEntry
      rw [h.fmax, h.d]
      refine PyRel.bind (PyRel.refl _) ?_
      rintro _ q rfl
      refine .ok ?_
      have := foldl_image (φ := fun y : K => y) (fun s r => flowStep_terms h.toShape m f e s r) routes 0
      show List.foldl _ _ _ - _ = List.foldl _ _ _ - _
      rw [this]
    · rw [eq_of_forall₂_image hab, List.map_id]; rfl
  · intro a b hab
    rw [eq_of_forall₂_image hab, List.map_id]
    exact .ok rfl

/-! ### distances -/

/-- the table of distances -/
def Terms.distances (u : Terms K) (d : Dict Int (Dict Int K)) : Dict Int (Dict Int K) :=
  Dict.via u.nodeId (Dict.via u.nodeId (u.len * ·)) d

theorem edgesDistance_terms (h : u.Shape) (g : Graph K) : (u.graph g).edgesDistance = u.distances g.edgesDistance := by
  unfold Graph.edgesDistance
  have := foldl_image (f := distStep g.nodes) (f' := distStep (g.nodes.map u.node)) (φ := u.distances) (ψ := id) (by
    intro d e
    unfold distStep
    show (match (g.nodes.map u.node)[e.node1]?, (g.nodes.map u.node)[e.node2]? with
      | some a, some b => setCell (u.distances d) a.id b.id (nodeDistance a b)
      | _, _ => u.distances d) = _
    rw [List.getElem?_map, List.getElem?_map]
    cases g.nodes[e.node1]? with
    | none => rfl
    | some a =>
      cases g.nodes[e.node2]? with
      | none => rfl
      | some b =>
        show setCell (u.distances d) (u.node a).id (u.node b).id (nodeDistance (u.node a) (u.node b)) = u.distances (setCell d a.id b.id (nodeDistance a b))
        rw [h.id, h.id, h.apart]
        unfold setCell
        have h1 : (u.distances d).getD (u.nodeId a.id) [] = Dict.via u.nodeId (u.len * ·) (d.getD a.id []) :=
          Dict.getD_via (ψ := Dict.via u.nodeId (u.len * ·)) h.nodeIds d a.id []
        have h2 := Dict.set_via (ψ := fun y : K => u.len * y) h.nodeIds (d.getD a.id []) b.id (nodeDistance a b)
        rw [h1, h2]
        exact Dict.set_via (ψ := Dict.via u.nodeId (u.len * ·)) h.nodeIds d a.id _) g.edges []
  rw [List.map_id] at this
  exact this

theorem distance_terms (h : u.Shape) (d : Dict Int (Dict Int K)) (a b : Int) :
    (lookup2 (u.distances d) (u.nodeId a) (u.nodeId b)).getD 0 = u.len * (lookup2 d a b).getD 0 := by
  unfold lookup2 Terms.distances
  rw [Dict.get?_via h.nodeIds]
  cases d.get? a with
  | none => simp
  | some r =>
    simp only [Option.map_some, Option.bind_some]
    rw [Dict.get?_via h.nodeIds]
    cases r.get? b <;> simp

/-! ### infrastructure -/

theorem mem_ends (h : u.Shape) (e : Int × Int) (l : List (Int × Int)) : u.ends e ∈ l.map u.ends ↔ e ∈ l :=
  List.mem_map_of_injective h.ends_inj

theorem sequenceUses_terms (h : u.Shape) (e : Int × Int) (seen : List (Int × Int)) (l : List Int) :
    sequenceUses (u.ends e) (seen.map u.ends) (l.map u.nodeId) = sequenceUses e seen l := by
  unfold sequenceUses
  rw [pairs_image, List.any_map]
  congr 1
  funext p
  exact decide_eq_decide.2 (and_congr h.nodeIds.eq_iff (and_congr h.nodeIds.eq_iff (not_congr (mem_ends h e seen))))

theorem routeUses_terms (h : u.Shape) (m : Mode K) (f : Dict Str K) (e : Int × Int) (seen : List (Int × Int)) (r : Route K) :
    routeUses (u.mode m) (u.frequencies f) (u.ends e) (seen.map u.ends) (u.route r) = routeUses m f e seen r := by
  unfold routeUses
  show (decide (u.mode r.mode = u.mode m) && decide ((u.frequencies f).getD (u.lineId r.id) 0 ≠ 0) &&
    (sequenceUses (u.ends e) (seen.map u.ends) (r.nodesI.map u.nodeId) || sequenceUses (u.ends e) (seen.map u.ends) (r.nodesR.map u.nodeId))) = _
  rw [frequency_terms h, sequenceUses_terms h, sequenceUses_terms h]
  simp only [h.modes.eq_iff]

/-- the lengths of the networks of the modes -/
def Terms.lengths (u : Terms K) (d : Dict (Mode K) K) : Dict (Mode K) K := Dict.via u.mode (u.len * ·) d

theorem infraStep_terms (h : u.Shape) (dist : Dict Int (Dict Int K)) (routes : List (Route K)) (f : Dict Str K) (m : Mode K)
    (acc : Dict (Mode K) K × List (Int × Int)) (e : Int × Int) :
    infraStep (u.distances dist) (routes.map u.route) (u.frequencies f) (u.mode m) (u.lengths acc.1, acc.2.map u.ends) (u.ends e) =
      (u.lengths (infraStep dist routes f m acc e).1, (infraStep dist routes f m acc e).2.map u.ends) := by
  unfold infraStep
  have ha : (routes.map u.route).any (routeUses (u.mode m) (u.frequencies f) (u.ends e) (acc.2.map u.ends)) =
      routes.any (routeUses m f e acc.2) := by
    rw [List.any_map]
    congr 1
    funext r
    exact routeUses_terms h m f e acc.2 r
  show (if (routes.map u.route).any (routeUses (u.mode m) (u.frequencies f) (u.ends e) (acc.2.map u.ends)) = true then
    ((u.lengths acc.1).set (u.mode m) ((u.lengths acc.1).getD (u.mode m) 0 +
      (lookup2 (u.distances dist) (u.nodeId e.1) (u.nodeId e.2)).getD 0 * (((u.mode m).d : Int) : K)), acc.2.map u.ends ++ [u.ends e, (u.nodeId e.2, u.nodeId e.1)])
    else (u.lengths acc.1, acc.2.map u.ends)) = _
  rw [ha]
  split
  · refine Prod.ext ?_ ?_
    · show (u.lengths acc.1).set (u.mode m) _ = _
      have h1 : (u.lengths acc.1).getD (u.mode m) 0 = u.len * acc.1.getD m 0 := by
        have := Dict.getD_via (ψ := fun y : K => u.len * y) h.modes acc.1 m 0
        rw [mul_zero] at this
        exact this
      rw [h1, distance_terms h, h.d]
      have : u.len * acc.1.getD m 0 + u.len * (lookup2 dist e.1 e.2).getD 0 * (m.d : K) =
          u.len * (acc.1.getD m 0 + (lookup2 dist e.1 e.2).getD 0 * (m.d : K)) := by ring
      rw [this]
      exact Dict.set_via (ψ := fun y : K => u.len * y) h.modes acc.1 m _
    · show acc.2.map u.ends ++ _ = (acc.2 ++ _).map u.ends
      rw [List.map_append]
      rfl
  · rfl

theorem modeDistance_terms (h : u.Shape) (g : Graph K) (routes : List (Route K)) (modes : List (Mode K)) (f : Dict Str K) :
    modeDistance (u.graph g) (routes.map u.route) (modes.map u.mode) (u.frequencies f) = u.lengths (modeDistance g routes modes f) := by
  unfold modeDistance
  refine foldl_image (φ := u.lengths) (s := []) ?_ modes
  intro acc m
  unfold infraMode
  rw [edgeIds_terms h, edgesDistance_terms h]
  have := foldl_image (φ := fun a : Dict (Mode K) K × List (Int × Int) => (u.lengths a.1, a.2.map u.ends))
    (fun s e => infraStep_terms h g.edgesDistance routes f m s e) g.edgeIds (acc, [])
  exact congrArg Prod.fst this

theorem infrastructureCost_terms (h : u.Bills) (g : Graph K) (routes : List (Route K)) (modes : List (Mode K)) (f : Dict Str K) :
    infrastructureCost (u.graph g) (routes.map u.route) (modes.map u.mode) (u.frequencies f) =
      u.money * infrastructureCost g routes modes f := by
  unfold infrastructureCost
  rw [modeDistance_terms h.toShape]
  have := foldl_image (f := fun (ci : K) (p : Mode K × K) => ci + p.1.c2 * p.2) (f' := fun (ci : K) (p : Mode K × K) => ci + p.1.c2 * p.2)
    (φ := (u.money * ·)) (ψ := fun p : Mode K × K => (u.mode p.1, u.len * p.2)) (by
      intro s p
      show u.money * s + (u.mode p.1).c2 * (u.len * p.2) = u.money * (s + p.1.c2 * p.2)
      rw [h.c2]
      have := h.len_ne
      field_simp) (modeDistance g routes modes f) 0
  rw [mul_zero] at this
  exact this

/-! ### operators -/

theorem lineTravelTime_terms (h : u.Shape) (dist : Dict Int (Dict Int K)) (r : Route K) :
    lineTravelTime (u.distances dist) (u.route r) = lineTravelTime dist r := by
  have hstep : ∀ (l : List Int) (tv : K), PyRel (fun a b => b = a) ((pairs l).foldlM (travelStep dist r.mode.v) tv)
      ((pairs (l.map u.nodeId)).foldlM (travelStep (u.distances dist) (u.mode r.mode).v) tv) := by
    intro l tv
    rw [pairs_image]
    refine PyRel.foldlM ?_ (forall₂_image _ _) rfl
    rintro s _ p _ rfl rfl
    unfold travelStep
    show PyRel _ _ (pyDiv ((lookup2 (u.distances dist) (u.nodeId p.1) (u.nodeId p.2)).getD 0) (u.mode r.mode).v >>= _)
    rw [distance_terms h, h.v, h.div_len]
    exact PyRel.refl _
  unfold lineTravelTime
  refine PyRel.to_eq (PyRel.bind (hstep r.nodesI 0) ?_)
  rintro _ tv rfl
  exact hstep r.nodesR _

theorem frequencies_set (h : u.Shape) (f : Dict Str K) (a : Str) (x : K) :
    (u.frequencies f).set (u.lineId a) x = u.frequencies (f.set a x) := Dict.set_via (ψ := fun y : K => y) h.lineIds f a x

theorem linesTravelTime_terms (h : u.Shape) (routes : List (Route K)) (dist : Dict Int (Dict Int K)) :
    PyRel (fun a b => b = u.frequencies a) (linesTravelTime routes dist) (linesTravelTime (routes.map u.route) (u.distances dist)) := by
  unfold linesTravelTime
  refine PyRel.foldlM ?_ (forall₂_image u.route routes) rfl
  rintro acc _ r _ rfl rfl
  unfold travelTimeStep
  rw [lineTravelTime_terms h]
  refine PyRel.bind (PyRel.refl _) ?_
  rintro _ tv rfl
  exact .ok (frequencies_set h acc r.id tv)

theorem touch_terms (h : u.Shape) (d : Dict (LoadKey K) K) (a : Str) (dir : Dir) (s : StopNode K) :
    touch (u.table d) (u.lineId a, dir, u.stop s) = u.table (touch d (a, dir, s)) := by
  unfold touch
  have hk : (u.lineId a, dir, u.stop s) ∈ Dict.keys (u.table d) ↔ (a, dir, s) ∈ Dict.keys d := by
    rw [show Dict.keys (u.table d) = (Dict.keys d).map u.key from Dict.keys_via d]
    exact List.mem_map_of_injective h.key_inj (a := (a, dir, s))
  simp only [hk]
  split
  · rfl
  · exact Dict.set_via (ψ := fun y : K => y) h.key_inj d (a, dir, s) 0

theorem stopsIn_terms (h : u.Shape) (d : Dict (LoadKey K) K) (a : Str) (dir : Dir) :
    stopsIn (u.table d) (u.lineId a) dir = (stopsIn d a dir).map u.stop := by
  unfold stopsIn
  rw [show Dict.keys (u.table d) = (Dict.keys d).map u.key from Dict.keys_via d, List.filterMap_map, List.map_filterMap]
  congr 1
  funext k
  show (if u.lineId k.1 = u.lineId a ∧ k.2.1 = dir then some (u.stop k.2.2) else none) = _
  simp only [h.lineIds.eq_iff]
  split <;> rfl

/-- the state of the loops of the cycle time -/
def Terms.dwell (u : Terms K) (s : Dwell K) : Dwell K := ⟨s.tc, u.table s.z, u.table s.v, s.done.map u.stop⟩

theorem seqBoard_terms (h : u.Shape) (t : K) (a : Str) (dir : Dir) (s : Dwell K) (x : StopNode K) :
    seqBoard t (u.lineId a) dir (u.dwell s) (u.stop x) = u.dwell (seqBoard t a dir s x) := by
  unfold seqBoard
  show (⟨s.tc + t * (u.table s.z).getD (u.lineId a, dir, u.stop x) 0, u.table s.z, u.table s.v, s.done.map u.stop⟩ : Dwell K) = _
  rw [table_get h]
  rfl

theorem seqAlight_terms (h : u.Shape) (t : K) (a : Str) (dir : Dir) (s : Dwell K) (x : StopNode K) :
    seqAlight t (u.lineId a) dir (u.dwell s) (u.stop x) = u.dwell (seqAlight t a dir s x) := by
  unfold seqAlight
  show (⟨s.tc + t * (u.table s.v).getD (u.lineId a, dir, u.stop x) 0, u.table s.z, u.table s.v, s.done.map u.stop⟩ : Dwell K) = _
  rw [table_get h]
  rfl

theorem sequentialDwell_terms (h : u.Shape) (t : K) (a : Str) (s : Dwell K) :
    sequentialDwell t (u.lineId a) (u.dwell s) = u.dwell (sequentialDwell t a s) := by
  have hb : ∀ (dir : Dir) (s : Dwell K), (stopsIn (u.dwell s).z (u.lineId a) dir).foldl (seqBoard t (u.lineId a) dir) (u.dwell s) =
      u.dwell ((stopsIn s.z a dir).foldl (seqBoard t a dir) s) := by
    intro dir s
    show (stopsIn (u.table s.z) (u.lineId a) dir).foldl _ _ = _
    rw [stopsIn_terms h]
    exact foldl_image (φ := u.dwell) (fun s x => seqBoard_terms h t a dir s x) _ s
  have ha : ∀ (dir : Dir) (s : Dwell K), (stopsIn (u.dwell s).v (u.lineId a) dir).foldl (seqAlight t (u.lineId a) dir) (u.dwell s) =
      u.dwell ((stopsIn s.v a dir).foldl (seqAlight t a dir) s) := by
    intro dir s
    show (stopsIn (u.table s.v) (u.lineId a) dir).foldl _ _ = _
    rw [stopsIn_terms h]
    exact foldl_image (φ := u.dwell) (fun s x => seqAlight_terms h t a dir s x) _ s
  unfold sequentialDwell
  simp only [hb, ha]

theorem simBoard_terms (h : u.Shape) (t : K) (a : Str) (dir : Dir) (s : Dwell K) (x : StopNode K) :
    simBoard t (u.lineId a) dir (u.dwell s) (u.stop x) = u.dwell (simBoard t a dir s x) := by
  unfold simBoard
  show (⟨s.tc + t * max ((u.table s.z).getD (u.lineId a, dir, u.stop x) 0) ((u.table s.v).getD (u.lineId a, dir, u.stop x) 0),
    u.table s.z, touch (u.table s.v) (u.lineId a, dir, u.stop x), s.done.map u.stop ++ [u.stop x]⟩ : Dwell K) = _
  rw [table_get h, table_get h, touch_terms h]
  simp only [Terms.dwell, List.map_append]
  rfl

theorem simAlight_terms (h : u.Shape) (t : K) (a : Str) (dir : Dir) (s : Dwell K) (x : StopNode K) :
    simAlight t (u.lineId a) dir (u.dwell s) (u.stop x) = u.dwell (simAlight t a dir s x) := by
  unfold simAlight
  show (if u.stop x ∈ s.done.map u.stop then u.dwell s else
    (⟨s.tc + t * max ((u.table s.z).getD (u.lineId a, dir, u.stop x) 0) ((u.table s.v).getD (u.lineId a, dir, u.stop x) 0),
      touch (u.table s.z) (u.lineId a, dir, u.stop x), u.table s.v, s.done.map u.stop⟩ : Dwell K)) = _
  rw [table_get h, table_get h, touch_terms h]
  simp only [List.mem_map_of_injective h.stop_inj]
  split <;> rfl

theorem simDirection_terms (h : u.Shape) (t : K) (a : Str) (dir : Dir) (s : Dwell K) :
    simDirection t (u.lineId a) dir (u.dwell s) = u.dwell (simDirection t a dir s) := by
  have hb : ∀ s : Dwell K, (stopsIn (u.dwell s).z (u.lineId a) dir).foldl (simBoard t (u.lineId a) dir) (u.dwell s) =
      u.dwell ((stopsIn s.z a dir).foldl (simBoard t a dir) s) := by
    intro s
    show (stopsIn (u.table s.z) (u.lineId a) dir).foldl _ _ = _
    rw [stopsIn_terms h]
    exact foldl_image (φ := u.dwell) (fun s x => simBoard_terms h t a dir s x) _ s
  have ha : ∀ s : Dwell K, (stopsIn (u.dwell s).v (u.lineId a) dir).foldl (simAlight t (u.lineId a) dir) (u.dwell s) =
      u.dwell ((stopsIn s.v a dir).foldl (simAlight t a dir) s) := by
    intro s
    show (stopsIn (u.table s.v) (u.lineId a) dir).foldl _ _ = _
    rw [stopsIn_terms h]
    exact foldl_image (φ := u.dwell) (fun s x => simAlight_terms h t a dir s x) _ s
  have hd := hb { s with done := [] }
  have hd' := ha ((stopsIn s.z a dir).foldl (simBoard t a dir) { s with done := [] })
  rw [← hd] at hd'
  exact hd'

theorem routeCycle_terms (h : u.Keeps) (times : Dict Str K) (r : Route K) (z v : Dict (LoadKey K) K) :
    routeCycle (u.frequencies times) (u.route r) (u.table z) (u.table v) = u.dwell (routeCycle times r z v) := by
  unfold routeCycle
  have h0 : (⟨(u.frequencies times).getD (u.route r).id 0, u.table z, u.table v, []⟩ : Dwell K) =
      u.dwell ⟨times.getD r.id 0, z, v, []⟩ := by
    show (⟨(u.frequencies times).getD (u.lineId r.id) 0, u.table z, u.table v, []⟩ : Dwell K) = _
    rw [frequency_terms h.toShape]
    rfl
  have ht : (u.route r).mode.t = r.mode.t := h.t r.mode
  have hb : (u.route r).mode.bya = r.mode.bya := h.bya r.mode
  have hi : (u.route r).id = u.lineId r.id := rfl
  simp only [h0, ht, hb]
  rw [hi]
  have h1 : (if r.mode.bya = 0 then sequentialDwell (r.mode.t / 3600) (u.lineId r.id) (u.dwell ⟨times.getD r.id 0, z, v, []⟩)
      else u.dwell ⟨times.getD r.id 0, z, v, []⟩) =
      u.dwell (if r.mode.bya = 0 then sequentialDwell (r.mode.t / 3600) r.id ⟨times.getD r.id 0, z, v, []⟩ else ⟨times.getD r.id 0, z, v, []⟩) := by
    split
    · exact sequentialDwell_terms h.toShape _ _ _
    · rfl
  rw [h1]
  split
  · unfold simultaneousDwell
    rw [simDirection_terms h.toShape, simDirection_terms h.toShape]
  · rfl

/-- the cycle times and the tables -/
def Terms.cycles (u : Terms K) (c : Cycles K) : Cycles K := ⟨u.frequencies c.time, u.table c.z, u.table c.v⟩

theorem getCycleTime_terms (h : u.Keeps) (z v : Dict (LoadKey K) K) (routes : List (Route K)) (times : Dict Str K) :
    getCycleTime (u.table z) (u.table v) (routes.map u.route) (u.frequencies times) = u.cycles (getCycleTime z v routes times) := by
  unfold getCycleTime
  refine foldl_image (φ := u.cycles) ?_ routes ⟨[], z, v⟩
  intro s r
  unfold cycleStep
  show (⟨(u.frequencies s.time).set (u.lineId r.id) (routeCycle (u.frequencies times) (u.route r) (u.table s.z) (u.table s.v)).tc,
    (routeCycle (u.frequencies times) (u.route r) (u.table s.z) (u.table s.v)).z,
    (routeCycle (u.frequencies times) (u.route r) (u.table s.z) (u.table s.v)).v⟩ : Cycles K) = _
  rw [routeCycle_terms h, frequencies_set h.toShape]
  rfl

theorem operatorsCost_terms (h : u.Bills) (routes : List (Route K)) (cycle f k : Dict Str K) :
    operatorsCost (routes.map u.route) (u.frequencies cycle) (u.frequencies f) (u.frequencies k) = u.money * operatorsCost routes cycle f k := by
  unfold operatorsCost
  have := foldl_image (f := operatorStep cycle f k) (f' := operatorStep (u.frequencies cycle) (u.frequencies f) (u.frequencies k))
    (φ := (u.money * ·)) (ψ := u.route) (by
      intro co r
      unfold operatorStep
      show (if (u.frequencies f).getD (u.lineId r.id) 0 = 0 then u.money * co else u.money * co + ((u.mode r.mode).co + (u.mode r.mode).c1 *
        (u.frequencies k).getD (u.lineId r.id) 0) * (u.frequencies f).getD (u.lineId r.id) 0 * (u.frequencies cycle).getD (u.lineId r.id) 0) = _
      rw [frequency_terms h.toShape, frequency_terms h.toShape, frequency_terms h.toShape, h.co, h.c1]
      split
      · rfl
      · ring) routes 0
  rw [mul_zero] at this
  exact this

end Sidermit
