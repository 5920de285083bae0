import Verif.Spec.Assignment

/-!
The time on board of the passengers of an hour, from the tables of loads, boardings and alightings alone.
-/

namespace Sidermit

variable {K : Type} [Field K] [LinearOrder K]

/-- a line that goes back over the same stops and has none twice -/
structure Route.TwoWay (r : Route K) : Prop where
  type : r.type ≠ .circular
  nodup : r.stopsI.Nodup
  back : r.stopsR = r.stopsI.reverse

/-- the passengers of an hour in a table, with a weight for each entry -/
def weigh (f : Dict Str K) (d : Dict (LoadKey K) K) (χ : LoadKey K → K) : K :=
  (d.map fun p => p.2 * vehicles f p.1.1 * χ p.1).sum

/-- those on board when leaving a route node, in an hour -/
def ridersFrom (f : Dict Str K) (load : Dict (LoadKey K) K) : ENode K → K
  | .route p => vehicles f p.route.id * load.getD p.key 0
  | _ => 0

/-- time of all the passengers of an hour in moving vehicles: the load of each section times the time of it -/
def movingTime (f : Dict Str K) (edges : List (EEdge K)) (load : Dict (LoadKey K) K) : K :=
  ((edges.filter fun e => decide (e.type = .route)).map fun e => e.t * ridersFrom f load e.i).sum

/-- who alights waits on average for half of those who alight there -/
def alightingDelay (v : Dict (LoadKey K) K) (k : LoadKey K) : K := v.getD k 0 * (1 / 2) * (k.2.2.mode.t / 3600)

/-- how long a vehicle is at a stop -/
def stopDelay (z v : Dict (LoadKey K) K) (k : LoadKey K) : K :=
  (if k.2.2.mode.bya = 1 then max (z.getD k 0) (v.getD k 0) else z.getD k 0 + v.getD k 0) * (k.2.2.mode.t / 3600)

/-- the entry of the second stop of a circular line that runs in direction I -/
def afterStart (routes : List (Route K)) (k : LoadKey K) : Bool :=
  routes.any fun r => decide (r.id = k.1 ∧ r.type = .circular ∧ k.2.1 = .I ∧ r.stopsI[1]? = some k.2.2.city.node.id)

/-- the other direction -/
def Dir.other : Dir → Dir
  | .I => .R
  | .R => .I

/-- `b` comes in the list, not in the first place only, where `a` does not come any more -/
def comesAfter (l : List Int) (a b : Int) : Prop := ∃ j, 0 < j ∧ l[j]? = some b ∧ ∀ i, j ≤ i → l[i]? ≠ some a

/-- the entry is that of a stop of direction R that the list of direction I has after the stop that the vehicle comes from, or that
of a stop of direction I that this list does not have after the stop that the vehicle comes from -/
def Misled (routes : List (Route K)) (k : LoadKey K) : Prop :=
  ∃ r ∈ routes, r.id = k.1 ∧ ∃ i j a, r.NodeAt k.2.1 i k.2.2.city.node.id ∧ r.stopBefore k.2.1 i = some j ∧
    r.NodeAt k.2.1 j a ∧ (comesAfter r.stopsI a k.2.2.city.node.id ↔ k.2.1 = .R)

open Classical in
/-- the same stop in the other direction if the entry is misled -/
noncomputable def readKey (routes : List (Route K)) (k : LoadKey K) : LoadKey K :=
  if Misled routes k then (k.1, k.2.1.other, k.2.2) else k

/-- a delay, but none at the second stop of a circular line -/
def butAfterStart (routes : List (Route K)) (χ : LoadKey K → K) (k : LoadKey K) : K := if afterStart routes k then 0 else χ k

end Sidermit
