import Verif.Spec.ExtGraph
import Verif.Model.Assignment

/-!
What the distribution of trips over stops and the loading of the lines are expected to be.
-/

namespace Sidermit

variable {K : Type} [Field K] [LinearOrder K]

/-- the key of a route node in the tables -/
def RouteNode.key (n : RouteNode K) : LoadKey K := (n.route.id, n.dir, n.stop)

/-- the nodes to which the hyperpath leads the trips of a pair: they start at the stops of the origin that have a share of
them, and end at the stops of the destination -/
inductive LedTo (p : ODResult K × Dict (StopNode K) K) : ENode K → Prop
  | start {s : StopNode K} : s ∈ Dict.keys p.1.paths → p.1.vij ≠ 0 → p.2.getD s 0 ≠ 0 → LedTo p (.stop s)
  | next {y : ENode K} {e : EEdge K} : LedTo p y → e ∈ p.1.res.succ y → (∀ s, e.j = .stop s → s.city ≠ p.1.dest) → LedTo p e.j

/-- frequencies that let the trips of a pair go on: none is negative, and at every stop to which they are led and where lines
are boarded one of these lines runs -/
structure LinesRun (f : Dict Str K) (p : ODResult K × Dict (StopNode K) K) : Prop where
  nonneg : ∀ id, 0 ≤ f.getD id 0
  some_line : ∀ s, LedTo p (.stop s) → ∀ b ∈ p.1.res.succ (.stop s), b.type = .boarding →
    ∃ b' ∈ p.1.res.succ (.stop s), ∃ n, b'.j = .route n ∧ 0 < f.getD n.route.id 0

/-- the routes have different ids, and none has two route nodes at the same stop in a direction -/
structure StopsOnce (routes : List (Route K)) : Prop where
  ids : (routes.map Route.id).Nodup
  once : ∀ r ∈ routes, ∀ d i j id, r.NodeAt d i id → r.NodeAt d j id → i = j

/-- the sum of the entries of a table for which `P` holds -/
def total (d : Dict (LoadKey K) K) (P : LoadKey K → Prop) [DecidablePred P] : K :=
  ((d.filter fun p => decide (P p.1)).map Prod.snd).sum

/-- the vehicles that share the passengers of an hour; the tables of a line without frequency are not divided -/
def vehicles (f : Dict Str K) (id : Str) : K := if f.getD id 0 = 0 then 1 else f.getD id 0

/-- the passengers of an hour in the entries for which `P` holds -/
def hourly (f : Dict Str K) (d : Dict (LoadKey K) K) (P : LoadKey K → Prop) [DecidablePred P] : K :=
  ((d.filter fun p => decide (P p.1)).map fun p => p.2 * vehicles f p.1.1).sum

/-- the trips of a pair that are assigned to its stops -/
def assignedTrips (p : ODResult K × Dict (StopNode K) K) : K :=
  ((Dict.keys p.1.paths).map fun s => p.1.vij * p.2.getD s 0 / 100).sum

/-- the trips assigned, of the pairs for which `P` holds -/
def tripsOf (l : List (ODResult K × Dict (StopNode K) K)) (P : ODResult K → Prop) [DecidablePred P] : K :=
  ((l.filter fun p => decide (P p.1)).map assignedTrips).sum

/-! ### distribution over two stops

The stop of a mode with one line is in the middle of a street of width `p`; the `D` lines of the other mode are evenly spaced
over the street.  A traveller at distance `y` from the middle walks to one of them.
-/

/-- where the line `i` of `D` lines is, measured from the middle of the street -/
def linePosition (p : K) (D : Int) (i : Nat) : K := ((2 * i + 1 : K) - (D : K)) / 2 * (p / (D : K))

/-- cost, in hours of travel, of walking from `y` to a stop at `o` and going on from there with label `t` -/
def costFrom (vp spa spv t y o : K) : K := t + spa / spv * (|y - o| / vp)

/-- the walk that outweighs the difference of two labels -/
def indifference (vp spa spv l1 l2 : K) : K := vp * (l2 - l1) / (spa / spv)

/-- the last of the positions that are looked at -/
def lastLine (p : K) (D : Int) : K := if D < 2 then 0 else (((D / 2 : Int) : K) - 1 / 2) * (p / (D : K))

/-- the case that is forgotten: the walk is exactly as long as the way to the last line -/
def Tie (p vp spa spv : K) (D : Int) (l1 l2 : K) : Prop := l1 ≤ l2 ∧ indifference vp spa spv l1 l2 = lastLine p D

end Sidermit
