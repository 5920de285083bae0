import Verif.Model.Costs
import Verif.Spec.Assignment
import Verif.Spec.City
import Verif.Spec.ExtGraph

/-!
What the constraints and the costs of the operators and of the infrastructure should be, stated on the routes and on the
tables, without the loops of the code.
-/

namespace Sidermit

variable {K : Type}

/-- how often a vehicle of the route drives from one node straight to another one in a cycle -/
def Route.crossings (r : Route K) (a b : Int) : Nat := (pairs r.nodesI).count (a, b) + (pairs r.nodesR).count (a, b)

/-- vehicles of the mode per hour from `a` to `b` -/
def vehicleFlow [Field K] [DecidableEq K] (routes : List (Route K)) (f : Dict Str K) (m : Mode K) (a b : Int) : K :=
  ((routes.filter fun r => r.mode = m).map fun r => f.getD r.id 0 * (r.crossings a b : K)).sum

/-- an active route of the mode drives from `a` to `b` -/
def Drives [Field K] (routes : List (Route K)) (f : Dict Str K) (m : Mode K) (a b : Int) : Prop :=
  ∃ r ∈ routes, r.mode = m ∧ f.getD r.id 0 ≠ 0 ∧ 0 < r.crossings a b

/-- `S` lists every unordered pair of a relation exactly once -/
structure EachOnce {α : Type} (P : α → α → Prop) (S : List (α × α)) : Prop where
  once : S.Pairwise fun p q => p ≠ q ∧ p ≠ (q.2, q.1)
  all : ∀ a b, P a b ∨ P b a ↔ (a, b) ∈ S ∨ (b, a) ∈ S

/-- the street between two nodes of the city is used by the mode, in one direction at least -/
def UsedStreet [Field K] (g : Graph K) (n : Nat) (routes : List (Route K)) (f : Dict Str K) (m : Mode K) (a b : Node K) :
    Prop :=
  a ∈ g.nodes ∧ b ∈ g.nodes ∧ Street n a b ∧ Drives routes f m a.id b.id

/-- total length of a list of streets -/
def lengthOf [Field K] [PyMath K] (S : List (Node K × Node K)) : K := (S.map fun p => nodeDistance p.1 p.2).sum

/-- passengers at the stops of a line, boarding and alighting at the same time: at each stop the larger number counts -/
def dwellMax [Field K] [LinearOrder K] (z v : Dict (LoadKey K) K) (id : Str) (S : List (LoadKey K)) : K :=
  ((S.filter fun k => k.1 = id).map fun k => max (z.getD k 0) (v.getD k 0)).sum

/-- the line is running -/
def Active [Field K] (f : Dict Str K) (r : Route K) : Prop := f.getD r.id 0 ≠ 0

end Sidermit
