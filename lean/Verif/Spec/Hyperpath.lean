import Verif.Model.ExtGraph
import Mathlib.Algebra.BigOperators.Group.List.Basic

/-!
What the hyperpath search is expected to compute: the cheapest travel strategy.

A strategy tells what to do at every node until the destination is reached: take an edge, or, at a stop, wait for the
first vehicle of a chosen set of lines.  Its cost is the expected generalised time.
-/

namespace Sidermit

variable {K : Type}

/-- the frequency of a boarding edge -/
def lineFreq [Field K] (e : EEdge K) : K := e.f.getD 0

variable [Field K] [DecidableEq K]

/-- generalised time of an edge: access is weighted by `pa / pv`, and the transfer penalty is not paid when alighting at the
destination -/
def legTime (pas : Passenger K) (dest : Option (CityNode K)) (e : EEdge K) : K :=
  match e.type, e.j with
  | .access, _ => e.t * pas.pa / pas.pv
  | .alighting, .stop s => if some s.city = dest then 0 else e.t
  | _, _ => e.t

/-- generalised waiting time at a stop, times the frequency -/
def waitCost (pas : Passenger K) (s : StopNode K) : K := s.mode.theta * pas.pw / pas.pv

/-- `Strategy edges pas origin dest x c`: there is a strategy from `x` to the destination with expected generalised time
`c` that does not use the city node of the origin -/
inductive Strategy [LT K] (edges : List (EEdge K)) (pas : Passenger K) (origin dest : Option (CityNode K)) :
    ENode K → K → Prop
  /-- the destination is reached -/
  | arrive (d : CityNode K) (hd : dest = some d) : Strategy edges pas origin dest (.city d) 0
  /-- an edge other than boarding is taken -/
  | go (e : EEdge K) (he : e ∈ edges) (hb : e.type ≠ .boarding) (hi : some e.i ≠ origin.map .city)
      (hj : some e.j ≠ origin.map .city) (c : K) (hc : Strategy edges pas origin dest e.j c) :
      Strategy edges pas origin dest e.i (legTime pas dest e + c)
  /-- the first vehicle of a set of lines is boarded; `l` holds the boarding edges and the costs that follow -/
  | wait (s : StopNode K) (l : List (EEdge K × K)) (hne : l ≠ []) (hnd : (l.map Prod.fst).Nodup)
      (hl : ∀ p ∈ l, p.1 ∈ edges ∧ p.1.type = .boarding ∧ p.1.i = .stop s ∧ 0 < lineFreq p.1)
      (hs : ∀ p ∈ l, Strategy edges pas origin dest p.1.j p.2) :
      Strategy edges pas origin dest (.stop s)
        ((waitCost pas s + (l.map fun p => lineFreq p.1 * (legTime pas dest p.1 + p.2)).sum) /
          (l.map fun p => lineFreq p.1).sum)

/-- generalised access time, paid at the stops of the origin -/
def accessTime (pas : Passenger K) (origin : Option (CityNode K)) : ENode K → K
  | .stop s => if some s.city = origin then s.mode.tat / 60 * pas.pa / pas.pv else 0
  | _ => 0

/-- `Leads succ dest x q`: from `x` the successors lead to `dest` over the nodes `q` -/
inductive Leads (succ : ENode K → List (EEdge K)) (dest : ENode K) : ENode K → List (ENode K) → Prop
  | here : Leads succ dest dest []
  | step {x : ENode K} {q : List (ENode K)} (hx : x ≠ dest) (e : EEdge K) (he : e ∈ succ x) (hq : Leads succ dest e.j q) :
      Leads succ dest x (e.j :: q)

/-- what the search needs of the extended graph and the passenger -/
structure Searchable [LE K] [LT K] (nodes : List (ENode K)) (edges : List (EEdge K)) (pas : Passenger K) : Prop where
  nodup : nodes.Nodup
  ends : ∀ e ∈ edges, e.i ∈ nodes ∧ e.j ∈ nodes
  edges_nodup : (edges.map fun e => (e.i, e.j)).Nodup
  finite : ∀ e ∈ edges, e.f = none ↔ e.type ≠ .boarding
  board : ∀ e ∈ edges, e.type = .boarding → e.t = 0 ∧ 0 ≤ lineFreq e ∧ ∃ s, e.i = .stop s ∧ 0 < s.mode.theta
  boarded : ∀ e ∈ edges, e.type = .boarding → ∃ n, e.j = .route n
  alight : ∀ e ∈ edges, e.type = .alighting → ∃ s, e.j = .stop s
  time : ∀ e ∈ edges, 0 ≤ e.t
  pv : 0 < pas.pv
  pw : 0 < pas.pw
  pa : 0 ≤ pas.pa

/-- there is a strategy from some stop of the origin to the destination; the nodes are given by their ids -/
def Connected [LT K] (nodes : ENodes K) (edges : List (EEdge K)) (pas : Passenger K) (o d : Int) : Prop :=
  ∃ co ∈ Dict.keys nodes, co.node.id = o ∧ ∃ cd ∈ Dict.keys nodes, cd.node.id = d ∧
    ∃ s ∈ stopsOf nodes, s.city = co ∧ ∃ c, Strategy edges pas (some co) (some cd) (.stop s) c

/-- the modes in use are one, or two of different name of which one has a single line per street -/
def ModesAssignable (stops : List (StopNode K)) : Prop :=
  (∃ m, (∃ s ∈ stops, s.mode = m) ∧ ∀ s ∈ stops, s.mode = m) ∨
  (∃ m m' : Mode K, m.name ≠ m'.name ∧ (∃ s ∈ stops, s.mode = m) ∧ (∃ s ∈ stops, s.mode = m') ∧
    (∀ s ∈ stops, s.mode = m ∨ s.mode = m') ∧ (m.d = 1 ∨ m'.d = 1))

/-- what the search needs of the modes -/
structure Mode.Runs [LE K] [LT K] (m : Mode K) : Prop where
  tat : 0 ≤ m.tat
  theta : 0 < m.theta
  speed : 0 < m.v
  lines : 0 < (m.d : K)

end Sidermit
