import Verif.Model.Demand

/-! What a demand object is about: the sum of its cells, and the histories that can produce it. -/

namespace Sidermit

variable {K : Type} [Field K] [LinearOrder K]

/-- the sum of all cells of a matrix -/
def cellSum (m : Dict Int (Dict Int K)) : K := (m.map fun r => (r.2.map Prod.snd).sum).sum

/-- `i` is the id of a node of the city -/
def IsNodeId (g : Graph K) (i : Int) : Prop := i ∈ g.nodes.map Node.id

/-- results of the four constructors -/
inductive Demand.Built [NumText K] (g : Graph K) : Demand K → Prop
  | init : Built g (Demand.init g)
  | params {y a alpha beta d} : Demand.buildFromParameters g y a alpha beta = .ok d → Built g d
  | content {mx d} : Demand.buildFromContent g mx = .ok d → Built g d
  | file {s d} : Demand.buildFromFile g s = .ok d → Built g d

/-- all histories of a demand object: a constructor, then accepted or rejected calls of `change_vij` and reads of cells
`(o, e)` of `get_matrix()` for which `okRead o e` -/
inductive Demand.History [NumText K] (g : Graph K) (okRead : Int → Int → Prop) : Demand K → Prop
  | built {d} : Demand.Built g d → History g okRead d
  | change {d} (o e : Int) (v : K) : History g okRead d → History g okRead (d.changeVij o e v).1
  | read {d} (o e : Int) : okRead o e → History g okRead d → History g okRead (d.readCell o e).1

/-- The documented domain of the parameters of a symmetric demand. -/
structure DemandParamsOk (y a alpha beta : K) : Prop where
  y_nonneg : 0 ≤ y
  a_nonneg : 0 ≤ a
  a_le : a ≤ 1
  alpha_nonneg : 0 ≤ alpha
  alpha_le : alpha ≤ 1
  beta_nonneg : 0 ≤ beta
  beta_lt : beta < 1
  sum_le : alpha + beta ≤ 1

/-- numbers whose printed form reads back as the same number and has no separators or white space -/
def PrintsWell [NumText K] (v : K) : Prop :=
  NumText.parse (NumText.fmt v) = some v ∧ ∀ c ∈ (NumText.fmt v : Str), c ≠ ',' ∧ isSpace c = false

end Sidermit
