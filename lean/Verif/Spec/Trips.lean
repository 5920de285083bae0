import Verif.Spec.Scale

/-!
What the properties on the trips of an origin-destination matrix say, apart from the model.
-/

namespace Sidermit

variable {K : Type}

/-- the cells of an origin-destination matrix: origin, destination, trips -/
def cells (m : Dict Int (Dict Int K)) : List (Int × Int × K) := m.flatMap fun p => p.2.map fun q => (p.1, q.1, q.2)

/-- the trips from `i` to `j`, 0 if the matrix has no such cell -/
def tripsIn [Zero K] (m : Dict Int (Dict Int K)) (i j : Int) : K := (m.getD i []).getD j 0

/-- a dictionary of dictionaries: no key twice -/
structure IsMatrix (m : Dict Int (Dict Int K)) : Prop where
  rows : (Dict.keys m).Nodup
  columns : ∀ p ∈ m, (Dict.keys p.2).Nodup

/-- one trip from `i` to `j` -/
def Demand.one [One K] (g : Graph K) (i j : Int) : Demand K := ⟨g, [(i, [(j, 1)])], 1⟩

/-- no trips -/
def Demand.none [Zero K] (g : Graph K) : Demand K := ⟨g, [], 0⟩

end Sidermit
