import Verif.Model.PathPlot
import Verif.Spec.Assignment

/-!
C86: what is to be seen in a picture of the itineraries of a pair.
-/

namespace Sidermit

variable {K : Type}

/-- the dots of a colour -/
def dots (colour : Str) (calls : List PathCall) : List Str :=
  calls.flatMap fun | .nodes l c => if c = colour then l else [] | _ => []

/-- the texts written -/
def written (calls : List PathCall) : List Str := calls.flatMap fun | .labels l => l | _ => []

/-- the arrows -/
def arrows (calls : List PathCall) : List (Str × Str) := calls.flatMap fun | .edges l _ => l | _ => []

/-- one of the itineraries -/
def Itinerary (paths : Dict (StopNode K) (List (List (ENode K)))) (p : List (ENode K)) : Prop := ∃ q ∈ paths, p ∈ q.2

/-- `y` comes next after `x` -/
def Next {α : Type} (p : List α) (x y : α) : Prop := ∃ u v, p = u ++ x :: y :: v

/-- a way through the picture along arrows -/
structure Way (calls : List PathCall) (a b : Str) (w : List Str) : Prop where
  first : w.head? = some a
  last : w.getLast? = some b
  along : w.IsChain fun s t => (s, t) ∈ arrows calls

/-- no two different nodes of the itineraries have the same text -/
def Unambiguous (paths : Dict (StopNode K) (List (List (ENode K)))) : Prop :=
  ∀ p q, Itinerary paths p → Itinerary paths q → ∀ x ∈ p, ∀ y ∈ q, plotName x = plotName y → x = y

/-- names that can be told apart in the picture: no two nodes of the city have the same name, there is no dash in it, and the modes of
the lines have different names without spaces -/
structure Legible (g : Graph K) (routes : List (Route K)) : Prop where
  nodes : (g.nodes.map Node.name).Nodup
  dash : ∀ n ∈ g.nodes, '-' ∉ n.name
  modes : ∀ r ∈ routes, ∀ r' ∈ routes, r.mode.name = r'.mode.name → r.mode = r'.mode
  space : ∀ r ∈ routes, ' ' ∉ r.mode.name

end Sidermit
