import Verif.Spec.Units
import Verif.Proofs.Sim
import Mathlib.Tactic.Ring

/-!
Cities built from parameters in other units (Spec/Units).
-/

set_option linter.unusedSectionVars false

namespace Sidermit

variable {K : Type} [Field K] [LinearOrder K] [IsStrictOrderedRing K] [PyMath K] {len money : K}

local notation "U" => (Terms.units len money : Terms K)

theorem unitsNode (n : Node K) : (U).node n =
    { n with x := len * n.x, y := len * n.y, radius := len * n.radius, width := len * n.width } := rfl

theorem mkEdge_units (nodes : List (Node K)) (id i j : Nat) : mkEdge (nodes.map (U).node) id i j = mkEdge nodes id i j := by
  have hk : ∀ i : Nat, ((nodes.map (U).node)[i]?).map Node.kind = (nodes[i]?).map Node.kind := by
    intro i
    rw [List.getElem?_map]
    cases nodes[i]? <;> rfl
  unfold mkEdge
  simp only [hk]

theorem buildEdges_units (g : Graph K) : PyRel (fun a b => b = (U).graph a) (buildEdges g) (buildEdges ((U).graph g)) := by
  unfold buildEdges
  have hm : ∀ id i j, mkEdge ((U).graph g).nodes id i j = mkEdge g.nodes id i j := mkEdge_units g.nodes
  simp only [hm]
  refine PyRel.bind (PyRel.refl _) ?_
  rintro _ es rfl
  exact .ok rfl

theorem len_neg_iff (h : 0 < len) (y : K) : len * y < 0 ↔ y < 0 := by
  have := mul_lt_mul_iff_right₀ (b := y) (c := 0) h
  rwa [mul_zero] at this

theorem mkNode_units (h : 0 < len) (kind : Kind) (id : Int) (x y radius angle width : K) (zone : Int) (name : Str) :
    PyRel (fun a b => b = (U).node a) (mkNode kind id x y radius angle width zone name)
      (mkNode kind id (len * x) (len * y) (len * radius) angle (len * width) zone name) := by
  unfold mkNode
  refine PyRel.bind (PyRel.raiseIf Iff.rfl _) fun _ _ _ => ?_
  refine PyRel.bind (PyRel.raiseIf (len_neg_iff h _) _) fun _ _ _ => ?_
  refine PyRel.bind (PyRel.raiseIf Iff.rfl _) fun _ _ _ => ?_
  refine PyRel.bind (PyRel.raiseIf (len_neg_iff h _) _) fun _ _ _ => ?_
  exact .ok rfl

theorem addNodes_units (g : Graph K) (p s : Node K) :
    PyRel (fun a b => b = (U).graph a) (addNodes g p s) (addNodes ((U).graph g) ((U).node p) ((U).node s)) := by
  unfold addNodes
  have hn : ((U).graph g).nodes.map Node.id = g.nodes.map Node.id := by
    show (g.nodes.map (U).node).map Node.id = _
    rw [List.map_map]
    rfl
  rw [hn]
  refine PyRel.bind (PyRel.raiseIf Iff.rfl _) fun _ _ _ => ?_
  refine .ok ?_
  unfold Terms.graph
  simp only [List.map_append]
  rfl

theorem addZone_units (g : Graph K) (p s : Node K) (zid : Option Int) :
    PyRel (fun a b => b = (U).graph a) (addZone g (some p) (some s) zid)
      (addZone ((U).graph g) (some ((U).node p)) (some ((U).node s)) zid) := by
  unfold addZone
  have hl : ((U).graph g).nodes.length = g.nodes.length := List.length_map _
  have hz : ((U).graph g).zones = g.zones := rfl
  simp only [hl, hz]
  refine PyRel.bind (PyRel.raiseIf Iff.rfl _) fun _ _ _ => ?_
  refine PyRel.bind (R := fun a b => b = a) (PyRel.refl _) ?_
  rintro _ z rfl
  refine PyRel.bind (addNodes_units { g with zones := g.zones ++ [z] } p s) ?_
  rintro g' _ rfl
  exact buildEdges_units g'

theorem getXY_units (r a : K) : getXY (len * r) a = (len * (getXY r a).1, len * (getXY r a).2) := by
  unfold getXY
  rw [mul_assoc, mul_assoc]

theorem zoneStep_units (h : 0 < len) (n : Int) (l gg p : K) (g : Graph K) (zone : Nat) :
    PyRel (fun a b => b = (U).graph a) (zoneStep n l gg p g zone) (zoneStep n (len * l) gg (len * p) ((U).graph g) zone) := by
  unfold zoneStep
  refine PyRel.bind (PyRel.refl _) ?_
  rintro _ q rfl
  have hr : len * l + gg * (len * l) = len * (l + gg * l) := by ring
  simp only [hr, getXY_units]
  refine PyRel.bind (mkNode_units (money := money) h ..) ?_
  rintro a _ rfl
  refine PyRel.bind (mkNode_units (money := money) h ..) ?_
  rintro b _ rfl
  exact addZone_units g a b _

theorem pyGet_units {α β : Type} (φ : α → β) (l : List α) (i : Nat) : PyRel (fun a b => b = φ a) (pyGet l i) (pyGet (l.map φ) i) := by
  unfold pyGet
  rw [List.getElem?_map]
  cases l[i]? with
  | none => exact .error _
  | some a => exact .ok rfl

theorem modify_image {α β : Type} {φ : α → β} {f : α → α} {f' : β → β} (h : ∀ a, f' (φ a) = φ (f a)) :
    ∀ (l : List α) (i : Nat), (l.map φ).modify i f' = (l.modify i f).map φ := by
  intro l
  induction l with
  | nil => intro i; cases i <;> rfl
  | cons a t ih =>
    intro i
    cases i with
    | zero => simp [h]
    | succ i => simp [ih]

theorem modifyNode_units (g : Graph K) (i : Nat) {f f' : Node K → Node K} (h : ∀ a, f' ((U).node a) = (U).node (f a)) :
    ((U).graph g).modifyNode i f' = (U).graph (g.modifyNode i f) := by
  unfold Graph.modifyNode Terms.graph
  simp only [modify_image h]

theorem anglesStep_units (angles : List K) (g : Graph K) (i : Nat) :
    PyRel (fun a b => b = (U).graph a) (anglesStep angles g i) (anglesStep angles ((U).graph g) i) := by
  unfold anglesStep
  refine PyRel.bind (PyRel.refl _) ?_
  rintro _ ang rfl
  refine PyRel.bind (R := fun a b => b = a) (PyRel.refl _) ?_
  rintro _ z rfl
  refine PyRel.bind (pyGet_units (U).node g.nodes z.periphery) ?_
  rintro p _ rfl
  refine PyRel.bind (pyGet_units (U).node g.nodes z.subcenter) ?_
  rintro s _ rfl
  refine .ok ?_
  rw [modifyNode_units (f := fun nd => { nd with x := (getXY p.radius ang).1, y := (getXY p.radius ang).2, angle := ang })]
  · rw [modifyNode_units (f := fun nd => { nd with x := (getXY s.radius ang).1, y := (getXY s.radius ang).2, angle := ang })]
    intro a
    simp only [unitsNode, getXY_units]
  · intro a
    simp only [unitsNode, getXY_units]

theorem giStep_units (gi : List K) (g : Graph K) (i : Nat) :
    PyRel (fun a b => b = (U).graph a) (giStep gi g i) (giStep gi ((U).graph g) i) := by
  unfold giStep
  refine PyRel.bind (PyRel.refl _) ?_
  rintro _ c rfl
  refine PyRel.bind (R := fun a b => b = a) (PyRel.refl _) ?_
  rintro _ z rfl
  refine PyRel.bind (pyGet_units (U).node g.nodes z.subcenter) ?_
  rintro s _ rfl
  refine .ok (modifyNode_units g _ fun a => ?_)
  have hr : c * (len * s.radius) = len * (c * s.radius) := by ring
  simp only [unitsNode, hr, getXY_units]

theorem hiStep_units (hi : List K) (g : Graph K) (i : Nat) :
    PyRel (fun a b => b = (U).graph a) (hiStep hi g i) (hiStep hi ((U).graph g) i) := by
  unfold hiStep
  refine PyRel.bind (PyRel.refl _) ?_
  rintro _ c rfl
  refine PyRel.bind (R := fun a b => b = a) (PyRel.refl _) ?_
  rintro _ z rfl
  refine PyRel.bind (pyGet_units (U).node g.nodes z.periphery) ?_
  rintro s _ rfl
  refine .ok (modifyNode_units g _ fun a => ?_)
  have hr : c * (len * s.radius) = len * (c * s.radius) := by ring
  simp only [unitsNode, hr, getXY_units]

theorem range_units {step step' : Graph K → Nat → Py (Graph K)}
    (h : ∀ g i, PyRel (fun a b => b = (U).graph a) (step g i) (step' ((U).graph g) i)) (n : Nat) (g : Graph K) :
    PyRel (fun a b => b = (U).graph a) ((List.range n).foldlM step g) ((List.range n).foldlM step' ((U).graph g)) := by
  have hl : List.Forall₂ (fun (a b : Nat) => b = a) (List.range n) (List.range n) := by
    simpa only [List.map_id'] using forall₂_image (fun y : Nat => y) (List.range n)
  refine PyRel.foldlM ?_ hl rfl
  rintro g _ _ i rfl rfl
  exact h g i

theorem asymmetry_units {step : List K → Graph K → Nat → Py (Graph K)}
    (h : ∀ xs g i, PyRel (fun a b => b = (U).graph a) (step xs g i) (step xs ((U).graph g) i)) (g : Graph K) (xs : List K) :
    PyRel (fun a b => b = (U).graph a) ((List.range g.zones.length).foldlM (step xs) g >>= buildEdges)
      ((List.range ((U).graph g).zones.length).foldlM (step xs) ((U).graph g) >>= buildEdges) := by
  refine PyRel.bind (range_units (h xs) g.zones.length g) ?_
  rintro g' _ rfl
  exact buildEdges_units g'

theorem ethaAsymmetry_units (g : Graph K) (etha : K) (zone : Int) :
    PyRel (fun a b => b = (U).graph a) (ethaAsymmetry g etha zone) (ethaAsymmetry ((U).graph g) etha zone) := by
  unfold ethaAsymmetry
  refine PyRel.bind (R := fun a b => b = a) (PyRel.refl _) ?_
  rintro _ z rfl
  refine PyRel.bind (pyGet_units (U).node g.nodes z.subcenter) ?_
  rintro s _ rfl
  have hr : etha * ((U).node s).radius = len * (etha * s.radius) := by
    show etha * (len * s.radius) = _
    ring
  have ha : ((U).node s).angle = s.angle := rfl
  have hx := getXY_units (len := len) (etha * s.radius) s.angle
  simp only [hr, ha, hx]
  have hn : (((U).graph g).nodes.map fun nd => if nd.kind = .cbd then
        ({ nd with x := len * (getXY (etha * s.radius) s.angle).1, y := len * (getXY (etha * s.radius) s.angle).2,
                   radius := len * (etha * s.radius), angle := s.angle } : Node K) else nd) =
      (g.nodes.map fun nd => if nd.kind = .cbd then
        ({ nd with x := (getXY (etha * s.radius) s.angle).1, y := (getXY (etha * s.radius) s.angle).2,
                   radius := etha * s.radius, angle := s.angle } : Node K) else nd).map (U).node := by
    show (g.nodes.map (U).node).map _ = _
    rw [List.map_map, List.map_map]
    refine List.map_congr_left fun n _ => ?_
    show (if n.kind = .cbd then _ else _) = (U).node (if n.kind = .cbd then _ else _)
    split <;> rfl
  rw [hn]
  exact buildEdges_units { g with nodes := g.nodes.map fun nd => if nd.kind = .cbd then
        ({ nd with x := (getXY (etha * s.radius) s.angle).1, y := (getXY (etha * s.radius) s.angle).2,
                   radius := etha * s.radius, angle := s.angle } : Node K) else nd }

theorem validator_units (h : 0 < len) (n : Int) (l g p : K) (etha : Option K) (ethaZone : Option Int) (angles gi hi : Option (List K)) :
    parametersValidator n (len * l) g (len * p) etha ethaZone angles gi hi = parametersValidator n l g p etha ethaZone angles gi hi := by
  have hi' : ∀ y : K, len * y < 0 ↔ y < 0 := len_neg_iff h
  unfold parametersValidator
  simp only [hi']

theorem buildFromParameters_units (h : 0 < len) (n : Int) (l gg p : K) (etha : Option K) (ethaZone : Option Int)
    (angles gi hi : Option (List K)) :
    PyRel (fun a b => b = (U).graph a) (buildFromParameters n l gg p etha ethaZone angles gi hi)
      (buildFromParameters n (len * l) gg (len * p) etha ethaZone angles gi hi) := by
  unfold buildFromParameters
  rw [validator_units h]
  refine PyRel.bind (PyRel.refl _) fun _ _ _ => ?_
  have hc := mkNode_units (money := money) h .cbd 0 (0 : K) 0 0 0 p 0 "CBD".toList
  rw [mul_zero] at hc
  refine PyRel.bind hc ?_
  rintro c _ rfl
  refine PyRel.bind (R := fun a b => b = (U).graph a) (range_units (zoneStep_units h n l gg p) n.toNat (addCbd Graph.empty c)) ?_
  rintro g1 _ rfl
  refine PyRel.bind (R := fun a b => b = (U).graph a) ?_ ?_
  · cases angles with
    | none => exact .ok rfl
    | some xs => exact asymmetry_units anglesStep_units g1 xs
  rintro g2 _ rfl
  refine PyRel.bind (R := fun a b => b = (U).graph a) ?_ ?_
  · cases gi with
    | none => exact .ok rfl
    | some xs => exact asymmetry_units giStep_units g2 xs
  rintro g3 _ rfl
  refine PyRel.bind (R := fun a b => b = (U).graph a) ?_ ?_
  · cases hi with
    | none => exact .ok rfl
    | some xs => exact asymmetry_units hiStep_units g3 xs
  rintro g4 _ rfl
  refine PyRel.bind (R := fun a b => b = (U).graph a) ?_ ?_
  · unfold whenEtha
    cases etha with
    | none => exact .ok rfl
    | some e =>
      cases ethaZone with
      | none => exact .ok rfl
      | some z => exact ethaAsymmetry_units g4 e z
  rintro g5 _ rfl
  exact .ok rfl

end Sidermit
