import Verif.Spec.ExtGraph
import Verif.Spec.Network
import Mathlib.Logic.Relation

/-!
Which trips a list of routes allows, told by the routes alone.
-/

namespace Sidermit

variable {K : Type}

/-- a vehicle of the route that has stopped at position `i` stops later at position `j` -/
def Route.Later (r : Route K) (i j : Nat) : Prop := r.type = .circular ∨ i < j

/-- a vehicle of the route takes passengers at node `a` and lets them get off at node `b`: nobody boards at the end of a
direction or gets off at its beginning, but for circular routes -/
def Route.Rides (r : Route K) (a b : Int) : Prop :=
  ∃ d i j, r.NodeAt d i a ∧ r.NodeAt d j b ∧ r.Later i j ∧
    (r.type = .circular ∨ ((r.nodesOf d).getLast? ≠ some a ∧ (r.nodesOf d).head? ≠ some b))

/-- some route that runs goes from `a` to `b` -/
def Ride [Zero K] [LT K] (routes : List (Route K)) (freq : Str → K) (a b : Int) : Prop :=
  ∃ r ∈ routes, 0 < freq r.id ∧ r.Rides a b

/-- one can travel from `o` to `d` with one ride after another -/
def Travel [Zero K] [LT K] (routes : List (Route K)) (freq : Str → K) (o d : Int) : Prop :=
  Relation.ReflTransGen (Ride routes freq) o d

/-- some route of mode `m` has a stop -/
def UsesMode (routes : List (Route K)) (m : Mode K) : Prop := ∃ r ∈ routes, r.mode = m ∧ ∃ d i id, r.NodeAt d i id

/-- the routes use one mode, or two of different name of which one has a single line per street -/
def SuitModes (routes : List (Route K)) : Prop :=
  (∃ m, UsesMode routes m ∧ ∀ m', UsesMode routes m' → m' = m) ∨
  (∃ m m' : Mode K, m.name ≠ m'.name ∧ UsesMode routes m ∧ UsesMode routes m' ∧
    (∀ k, UsesMode routes k → k = m ∨ k = m') ∧ (m.d = 1 ∨ m'.d = 1))

/-- the routes a user can have: circular routes with one direction, and routes that the validation accepts -/
def Route.Sound (r : Route K) : Prop :=
  (r.type = .circular ∧ (r.stopsI = [] ∨ r.stopsR = [])) ∨
  (r.type ≠ .circular ∧ CustomOk r.nodesI r.nodesR r.stopsI r.stopsR)

/-- the route stops at node `a` -/
def Route.StopsAt (r : Route K) (a : Int) : Prop := ∃ d i, r.NodeAt d i a

/-- a route that runs stops at both nodes -/
def SharedLine [Zero K] [LT K] (routes : List (Route K)) (freq : Str → K) (a b : Int) : Prop :=
  ∃ r ∈ routes, 0 < freq r.id ∧ r.StopsAt a ∧ r.StopsAt b

end Sidermit
