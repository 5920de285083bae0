import Verif.Model.Assignment

/-!
Model of `sidermit/optimization/users_cost.py`.

Reading a missing key of the tables `f`, `z` and `v`, which are `defaultdict(float)`, gives 0; that the key is then in the
dictionary is not modelled, nothing reads it as different from a missing one.  `levels` (Model/Assignment) is the loop over the
list `paths`.
-/

namespace Sidermit

variable {K : Type}

/-- users_cost.py:48-51: the four totals -/
structure Resources (K : Type) where
  ta : K
  te : K
  tv : K
  t : K
  deriving DecidableEq, Repr

/-- users_cost.py:119-128 and 168-177: the position of the last occurrence of a node, 0 without one -/
def lastIndex (l : List Int) (id : Int) : Nat := l.zipIdx.foldl (fun i p => if p.1 = id then p.2 else i) 0

/-- users_cost.py:132 and 180: the direction in which `a` is taken to come before `b` -/
def guessDir (r : Route K) (a b : Int) : Dir := if lastIndex r.stopsI a < lastIndex r.stopsI b then .I else .R

/-- `prev_route_node` -/
def prevOf [DecidableEq K] (nodes : ENodes K) (n : RouteNode K) : Option (RouteNode K) :=
  ((entriesOf nodes).find? fun e => decide (e.node = n)).bind RouteEntry.prev

section

variable [Field K] [LinearOrder K]

/-- users_cost.py:83-96: waiting time, and `dis_pax` -/
def waitPart (f : Dict Str K) (succ : ENode K → List (EEdge K)) (u : Resources K) (w : Item K) : Py (Resources K × K) :=
  match w.i, w.j with
  | .stop s, .route n => do
    let acum ← accumulated f (succ (.stop s))
    let q ← pyDiv (f.getD n.route.id 0) acum
    let h ← pyDiv acum (n.route.mode.d : K)
    let te ← pyDiv (w.pax * q * s.mode.theta) h
    return ({ u with te := u.te + te }, w.pax * q)
  | _, _ => .ok (u, w.pax)

/-- users_cost.py:98-104: time of an edge of a route -/
def ridePart (edges : List (EEdge K)) (u : Resources K) (w : Item K) (dis : K) : Resources K :=
  match w.i, w.j with
  | .route _, .route _ =>
    match edges.find? fun e => decide (e.i = w.i ∧ e.j = w.j) with
    | some e => { u with tv := u.tv + dis * e.t }
    | none => u
  | _, _ => u

/-- users_cost.py:106-139: transfers, and waiting for those who alight at the same stop -/
def alightPart (nodes : ENodes K) (dest : CityNode K) (v : Dict (LoadKey K) K) (u : Resources K) (w : Item K) (dis : K) :
    Py (Resources K) :=
  match w.i, w.j with
  | .route n, .stop s =>
    match prevOf nodes n with
    | none => .error .AttributeError
    | some p => .ok { u with
        t := if s.city ≠ dest then u.t + dis else u.t
        tv := u.tv + v.getD (n.route.id, guessDir n.route p.stop.city.node.id n.stop.city.node.id, s) 0 * (1 / 2) *
          (n.route.mode.t / 3600) * dis }
  | _, _ => .ok u

/-- users_cost.py:141-147: access time; there is no factor for the passengers -/
def walkPart (u : Resources K) (w : Item K) : Resources K :=
  match w.i, w.j with
  | .stop s, .city _ => { u with ta := u.ta + s.mode.tat / 60 }
  | .city _, .stop s => { u with ta := u.ta + s.mode.tat / 60 }
  | _, _ => u

/-- users_cost.py:181-202: passengers that board and alight at a stop, according to the kind of boarding and alighting -/
def passing (m : Mode K) (z v : K) : K := if m.bya = 1 then max z v else if m.bya = 0 then z + v else 0

/-- users_cost.py:158-202: waiting of those who stay in the vehicle, for one successor of `nodej` -/
def throughStep (z v : Dict (LoadKey K) K) (w : Item K) (dis : K) (u : Resources K) (suc : EEdge K) : Resources K :=
  match w.i, w.j, suc.j with
  | .route p, .route n, .route _ =>
    let k : LoadKey K := (p.route.id, guessDir p.route p.stop.city.node.id n.stop.city.node.id, n.stop)
    { u with tv := u.tv + passing p.route.mode (z.getD k 0) (v.getD k 0) * (p.route.mode.t / 3600) * dis }
  | _, _, _ => u

/-- users_cost.py:83-202: an element that is not skipped, and `dis_pax` -/
def userVisit (f : Dict Str K) (x : ExtGraph K) (z v : Dict (LoadKey K) K) (succ : ENode K → List (EEdge K))
    (dest : CityNode K) (u : Resources K) (w : Item K) : Py (Resources K × K) := do
  let r ← waitPart f succ u w
  let u' ← alightPart x.nodes dest v (ridePart x.edges r.1 w r.2) w r.2
  return ((succ w.j).foldl (throughStep z v w r.2) (walkPart u' w), r.2)

/-- users_cost.py:77-202: one pass of the loop -/
def userStep (f : Dict Str K) (x : ExtGraph K) (z v : Dict (LoadKey K) K) (succ : ENode K → List (EEdge K))
    (dest : CityNode K) (u : Resources K) (w : Item K) : Py (Resources K × List (Item K)) :=
  if stopOf dest w.i then .ok (u, [])
  else do
    let r ← userVisit f x z v succ dest u w
    return (r.1, follow succ w.j r.2)

/-- users_cost.py:72-74: access time at the origin, per passenger -/
def firstAccess (vp : K) (e : ODResult K) (share : Dict (StopNode K) K) (s : StopNode K) : Py K := do
  let q ← pyDiv (share.getD s 0 / 100 * e.origin.node.width) (4 * vp * (s.mode.d : K))
  return s.mode.tat / 60 + q

/-- users_cost.py:60-202: one stop of the origin of a pair; `N` bounds the rounds -/
def userStop (N : Nat) (f : Dict Str K) (x : ExtGraph K) (vp : K) (z v : Dict (LoadKey K) K) (e : ODResult K)
    (share : Dict (StopNode K) K) (u : Resources K) (s : StopNode K) : Py (Resources K) :=
  let vods := e.vij * share.getD s 0 / 100
  if vods = 0 then .ok u
  else do
    let a ← firstAccess vp e share s
    levels (userStep f x z v e.res.succ e.dest) N { u with ta := u.ta + vods * a } (follow e.res.succ (.stop s) vods)

/-- users_cost.py:57-202: one pair -/
def userPair (N : Nat) (f : Dict Str K) (x : ExtGraph K) (vp : K) (z v : Dict (LoadKey K) K) (u : Resources K)
    (p : ODResult K × Dict (StopNode K) K) : Py (Resources K) :=
  (Dict.keys p.1.paths).foldlM (userStop N f x vp z v p.1 p.2) u

/-- users_cost.py:30-204 `resources_consumer`; `N` bounds the rounds -/
def resourcesConsumer (N : Nat) (f : Dict Str K) (x : ExtGraph K) (vp : K) (z v : Dict (LoadKey K) K)
    (l : List (ODResult K × Dict (StopNode K) K)) : Py (Resources K) :=
  l.foldlM (userPair N f x vp z v) ⟨0, 0, 0, 0⟩

/-- users_cost.py:229 -/
def resourcesCost (pas : Passenger K) (u : Resources K) : K :=
  u.ta * pas.spa + u.te * pas.spw + u.tv * pas.spv + u.t * pas.spt / 60 * pas.spv

/-- users_cost.py:206-229 `get_users_cost` -/
def usersCost (N : Nat) (f : Dict Str K) (x : ExtGraph K) (pas : Passenger K) (z v : Dict (LoadKey K) K)
    (l : List (ODResult K × Dict (StopNode K) K)) : Py K := do
  let u ← resourcesConsumer N f x pas.va z v l
  return resourcesCost pas u

end

end Sidermit
