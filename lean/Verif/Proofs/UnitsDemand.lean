import Verif.Spec.Units
import Verif.Proofs.Sim

/-!
Demand built from parameters in other units (Spec/Units).
-/

set_option linter.unusedSectionVars false

namespace Sidermit

variable {K : Type} [Field K] [LinearOrder K] {len money : K}

local notation "U" => (Terms.units len money : Terms K)

theorem demandUnits (d : Demand K) : (U).demand d = ⟨(U).graph d.graph, d.matrix, d.total⟩ := by
  unfold Terms.demand
  have : (U).trips d.matrix = d.matrix := by
    unfold Terms.trips
    have hi : ∀ q : Dict Int K, (q.map fun c => ((U).nodeId c.1, c.2)) = q := fun q => List.map_id q
    simp only [hi]
    exact List.map_id d.matrix
  rw [this]

theorem findNode_units (nodes : List (Node K)) (i : Int) : findNode (nodes.map (U).node) i = (findNode nodes i).map (U).node := by
  unfold findNode
  refine foldl_image (φ := Option.map (U).node) (s := none) ?_ nodes
  intro s n
  show (if n.id = i then _ else _) = _
  split <;> rfl

theorem change_units (d : Demand K) (o e : Int) (v : K) :
    PyRel (fun a b => b = (U).demand a) (d.change o e v) (((U).demand d).change o e v) := by
  rw [demandUnits]
  unfold Demand.change Demand.changeVij
  by_cases hv : v < 0
  · rw [if_pos hv, if_pos hv]
    exact .error _
  · rw [if_neg hv, if_neg hv]
    cases d.matrix.get? o with
    | none => exact .error _
    | some r =>
      cases r with
      | nil => exact .error _
      | cons c row =>
        cases hg : Dict.get? (c :: row) e with
        | none => simp only [hg]; exact .error _
        | some old => simp only [hg]; refine .ok ?_; rw [demandUnits]

theorem changeIf_units (d : Demand K) (c : Prop) [Decidable c] (o e : Int) (v : K) :
    PyRel (fun a b => b = (U).demand a) (d.changeIf c o e v) (((U).demand d).changeIf c o e v) := by
  unfold Demand.changeIf
  split
  · exact change_units d o e v
  · exact .ok rfl

theorem demandStep_units (t : TripValues K) (d : Demand K) (p : Int × Int) :
    PyRel (fun a b => b = (U).demand a) (demandStep t d p) (demandStep t ((U).demand d) p) := by
  unfold demandStep
  have hk : ∀ i, (findNode ((U).demand d).graph.nodes i).map Node.kind = (findNode d.graph.nodes i).map Node.kind := by
    intro i
    show (findNode (d.graph.nodes.map (U).node) i).map Node.kind = _
    rw [findNode_units]
    cases findNode d.graph.nodes i <;> rfl
  have hz : ∀ i, (findNode ((U).demand d).graph.nodes i).map Node.zone = (findNode d.graph.nodes i).map Node.zone := by
    intro i
    show (findNode (d.graph.nodes.map (U).node) i).map Node.zone = _
    rw [findNode_units]
    cases findNode d.graph.nodes i <;> rfl
  simp only [hk, hz]
  split
  · exact .ok rfl
  split
  · exact .ok rfl
  refine PyRel.bind (changeIf_units d _ _ _ _) ?_
  rintro d1 _ rfl
  refine PyRel.bind (changeIf_units d1 _ _ _ _) ?_
  rintro d2 _ rfl
  refine PyRel.bind (changeIf_units d2 _ _ _ _) ?_
  rintro d3 _ rfl
  refine PyRel.bind (changeIf_units d3 _ _ _ _) ?_
  rintro d4 _ rfl
  exact changeIf_units d4 _ _ _ _

theorem initDemand_units (g : Graph K) : Demand.init ((U).graph g) = (U).demand (Demand.init g) := by
  rw [demandUnits]
  unfold Demand.init
  have : defaultMatrix ((U).graph g).nodes = defaultMatrix g.nodes := by
    unfold defaultMatrix
    show (g.nodes.map (U).node).foldl (fun m o => (g.nodes.map (U).node).foldl (fun m d => setCell m o.id d.id 0) m) [] = _
    simp only [List.foldl_map]
    rfl
  rw [this]

theorem demand_units (g : Graph K) (y a alpha beta : K) :
    PyRel (fun x z => z = (U).demand x) (Demand.buildFromParameters g y a alpha beta)
      (Demand.buildFromParameters ((U).graph g) y a alpha beta) := by
  unfold Demand.buildFromParameters
  refine PyRel.bind (PyRel.refl _) fun _ _ _ => ?_
  have hn : ((U).graph g).n = g.n := rfl
  rw [hn]
  cases g.n with
  | none => exact .error _
  | some n =>
    simp only
    have hm : (Demand.init ((U).graph g)).matrix = (Demand.init g).matrix := by rw [initDemand_units, demandUnits]
    rw [hm, initDemand_units]
    have hl : List.Forall₂ (fun (a b : Int × Int) => b = a) (matrixKeys (Demand.init g).matrix) (matrixKeys (Demand.init g).matrix) := by
      simpa only [List.map_id'] using forall₂_image (fun y : Int × Int => y) (matrixKeys (Demand.init g).matrix)
    refine PyRel.foldlM ?_ hl rfl
    rintro d _ _ p rfl rfl
    exact demandStep_units _ d p

end Sidermit
