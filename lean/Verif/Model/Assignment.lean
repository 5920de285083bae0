import Verif.Model.Hyperpath

/-!
Model of `sidermit/optimization/preoptimization/assignment.py`.

The nested dictionaries `dic[route_id][direction][stop]` are dictionaries with the key `(route_id, direction, stop)`; they
are `defaultdict`s of numbers, a missing key reads as 0.  The dictionaries `hyperpaths`, `labels`, `successors` and `Vij` are
those returned by `get_all_hyperpaths`: one `ODResult` for each pair.  The printing function is not modelled.
-/

namespace Sidermit

variable {K : Type}

/-! ### distribution of the trips of a pair over the stops of the origin -/

/-- assignment.py:61-68: one pass of the loop that finds the stop of a mode with `d = 1` and the other one -/
def stopPairStep (acc : Option (StopNode K) × Option (StopNode K)) (s : StopNode K) :
    Option (StopNode K) × Option (StopNode K) :=
  if s.mode.d = 1 then
    match acc.1 with
    | none => (some s, acc.2)
    | some _ => (acc.1, some s)
  else (acc.1, some s)

/-- assignment.py:55-68: `stop1` and `stop2` -/
def stopPair (stops : List (StopNode K)) : Option (StopNode K) × Option (StopNode K) := stops.foldl stopPairStep (none, none)

section Shares

variable [Field K] [LinearOrder K]

/-- assignment.py:94-107: the loop over the lines at the right of the centre; `i` is the index of the pass.  The result is
the last `position` and whether the loop was left by `break`. -/
def positionLoop (zone d : K) : Nat → Nat → K → K × Bool
  | 0, _, position => (position, false)
  | n + 1, i, position =>
    let position := if i = 0 then zone / 2 else position + zone
    if position > d then (position, true) else positionLoop zone d n (i + 1) position

/-- assignment.py:103-110: the shares after the loop -/
def sharesAfterLoop (s1 s2 : StopNode K) (p d : K) (r : K × Bool) : Py (Dict (StopNode K) K) := do
  let a ← if r.2 then (do
      let q ← pyDiv (2 * d + (r.1 - d)) p
      return Dict.set (Dict.set [] s1 (q * 100)) s2 (100 - q * 100))
    else .ok []
  if r.1 < d then .ok (Dict.set a s1 100) else .ok a

/-- assignment.py:80-110: the stop with `d = 1` has the smaller label -/
def sharesFirst (s1 s2 : StopNode K) (l1 l2 p vp spa spv : K) : Py (Dict (StopNode K) K) := do
  let ratio ← pyDiv spa spv
  let d ← pyDiv (vp * (l2 - l1)) ratio
  if d ≥ p / 2 then .ok [(s1, 100)]
  else do
    let zone ← pyDiv p (s2.mode.d : K)
    sharesAfterLoop s1 s2 p d (positionLoop zone d (s2.mode.d / 2).toNat 0 0)

/-- assignment.py:116-128: the other stop has the smaller label and an even number of lines -/
def sharesSecond (s1 s2 : StopNode K) (l1 l2 p vp spa spv : K) : Py (Dict (StopNode K) K) := do
  let ratio ← pyDiv spa spv
  let d ← pyDiv (vp * (l1 - l2)) ratio
  let zone ← pyDiv p (s2.mode.d : K)
  let position := zone * (1 / 2)
  if d ≥ position then .ok [(s2, 100)]
  else do
    let q ← pyDiv (position - d) p
    return Dict.set (Dict.set [] s1 (q * 100)) s2 (100 - q * 100)

/-- assignment.py:78-128: both stops exist; the stops of the hyperpath have finite labels -/
def sharesTwo (s1 s2 : StopNode K) (l1 l2 : WithTop K) (p vp spa spv : K) : Py (Dict (StopNode K) K) :=
  match l1, l2 with
  | .some l1, .some l2 =>
    if l1 ≤ l2 then sharesFirst s1 s2 l1 l2 p vp spa spv
    else if s2.mode.d % 2 = 1 then .ok [(s2, 100)]
    else sharesSecond s1 s2 l1 l2 p vp spa spv
  | _, _ => .error .NotANumber

/-- assignment.py:55-128: the shares (in percent) of the stops of a pair -/
def sharesOf (stops : List (StopNode K)) (label : ENode K → WithTop K) (p vp spa spv : K) : Py (Dict (StopNode K) K) :=
  match stopPair stops with
  | (none, none) => .ok []
  | (some s1, none) => .ok [(s1, 100)]
  | (none, some s2) => .ok [(s2, 100)]
  | (some s1, some s2) => sharesTwo s1 s2 (label (.stop s1)) (label (.stop s2)) p vp spa spv

/-- assignment.py:35-129 `get_assignment`: the shares of each pair -/
def getAssignment (l : List (ODResult K)) (p vp spa spv : K) : Py (List (Dict (StopNode K) K)) :=
  l.mapM fun e => sharesOf (Dict.keys e.paths) e.res.label p vp spa spv

/-! ### traversal of the hyperpaths -/

/-- an element `(nodei, nodej, pax)` of the list `paths` -/
structure Item (K : Type) where
  i : ENode K
  j : ENode K
  pax : K
  deriving DecidableEq

/-- one element is taken from the list `paths`: `step` gives the new totals and the elements appended -/
def levelStep {σ : Type} (step : σ → Item K → Py (σ × List (Item K))) (acc : σ × List (Item K)) (w : Item K) :
    Py (σ × List (Item K)) := do
  let r ← step acc.1 w
  return (r.1, acc.2 ++ r.2)

/-- assignment.py:173-209 (and users_cost.py:76-202): the loop `while len(paths) != 0`.  The list is a queue, so the elements
are processed generation by generation; one round is a generation.  The number of rounds is bounded by `fuel`; a longer loop
would be reported as `Diverges`. -/
def levels {σ : Type} (step : σ → Item K → Py (σ × List (Item K))) : Nat → σ → List (Item K) → Py σ
  | _, st, [] => .ok st
  | 0, _, _ :: _ => .error .Diverges
  | fuel + 1, st, w :: ws => do
    let r ← (w :: ws).foldlM (levelStep step) (st, [])
    levels step fuel r.1 r.2

/-- assignment.py:186 and 188: `suc.nodej.route.id` -/
def lineId (x : ENode K) : Py Str :=
  match x with
  | .route n => .ok n.route.id
  | _ => .error .AttributeError

/-- assignment.py:186: one pass of the loop -/
def accStep (f : Dict Str K) (acc : K) (e : EEdge K) : Py K := do
  let id ← lineId e.j
  return acc + f.getD id 0

/-- assignment.py:183-186: `f_acum` -/
def accumulated (f : Dict Str K) (l : List (EEdge K)) : Py K := l.foldlM (accStep f) 0

/-- assignment.py:183-188: the passengers at a stop who take the line of `n` -/
def takeLine (f : Dict Str K) (succ : ENode K → List (EEdge K)) (s : StopNode K) (n : RouteNode K) (pax : K) : Py K := do
  let acum ← accumulated f (succ (.stop s))
  let q ← pyDiv (f.getD n.route.id 0) acum
  return pax * q

/-! ### boarding, alighting and load -/

/-- `(route_id, direction, stop)` -/
abbrev LoadKey (K : Type) := Str × Dir × StopNode K

/-- the tables `z`, `v` and `loaded_section_route` -/
structure Loads (K : Type) where
  z : Dict (LoadKey K) K
  v : Dict (LoadKey K) K
  load : Dict (LoadKey K) K
  deriving DecidableEq

/-- `table[key] += x` -/
def addTo (d : Dict (LoadKey K) K) (k : LoadKey K) (x : K) : Dict (LoadKey K) K := d.set k (d.getD k 0 + x)

/-- assignment.py:176-201: the tables after an element, and `dis_pax` -/
def visit (f : Dict Str K) (succ : ENode K → List (EEdge K)) (t : Loads K) (w : Item K) : Py (Loads K × K) :=
  match w.i, w.j with
  | .stop s, .route n => do
    let dis ← takeLine f succ s n w.pax
    return ({ t with z := addTo t.z (n.route.id, n.dir, s) dis }, dis)
  | .route n, .stop s => .ok ({ t with v := addTo t.v (n.route.id, n.dir, s) w.pax }, w.pax)
  | .route n, .route _ => .ok ({ t with load := addTo t.load (n.route.id, n.dir, n.stop) w.pax }, w.pax)
  | _, _ => .ok (t, w.pax)

/-- `isinstance(node, StopNode) and node.city_node == destination` -/
def stopOf (dest : CityNode K) (x : ENode K) : Bool :=
  match x with
  | .stop s => decide (s.city = dest)
  | _ => false

/-- the elements that follow `nodej` -/
def follow (succ : ENode K → List (EEdge K)) (x : ENode K) (pax : K) : List (Item K) :=
  (succ x).map fun e => ⟨x, e.j, pax⟩

/-- assignment.py:174-209: one pass of the loop -/
def loadStep (f : Dict Str K) (succ : ENode K → List (EEdge K)) (dest : CityNode K) (t : Loads K) (w : Item K) :
    Py (Loads K × List (Item K)) := do
  let r ← visit f succ t w
  return (r.1, if stopOf dest w.j then [] else follow succ w.j r.2)

/-- assignment.py:159-209: one stop of the origin of a pair; `share` is the assignment of the pair and `n` bounds the
rounds -/
def loadStop (n : Nat) (f : Dict Str K) (e : ODResult K) (share : Dict (StopNode K) K) (t : Loads K) (s : StopNode K) :
    Py (Loads K) :=
  let vods := e.vij * share.getD s 0 / 100
  if vods = 0 then .ok t
  else levels (loadStep f e.res.succ e.dest) n t (follow e.res.succ (.stop s) vods)

/-- assignment.py:157-209: one pair -/
def loadPair (n : Nat) (f : Dict Str K) (t : Loads K) (p : ODResult K × Dict (StopNode K) K) : Py (Loads K) :=
  (Dict.keys p.1.paths).foldlM (loadStop n f p.1 p.2) t

/-- assignment.py:211-235: per vehicle -/
def perVehicle (f : Dict Str K) (d : Dict (LoadKey K) K) : Dict (LoadKey K) K :=
  d.map fun p => if f.getD p.1.1 0 = 0 then p else (p.1, p.2 / f.getD p.1.1 0)

/-- assignment.py:131-237 `get_alighting_and_boarding`; `n` bounds the rounds -/
def getLoads (n : Nat) (f : Dict Str K) (l : List (ODResult K × Dict (StopNode K) K)) : Py (Loads K) := do
  let t ← l.foldlM (loadPair n f) ⟨[], [], []⟩
  return ⟨perVehicle f t.z, perVehicle f t.v, perVehicle f t.load⟩

/-- assignment.py:276-282: one pass of the loops.  In the code the loops go route by route; the loads of a route are read in
the same order. -/
def maxStep (d : Dict Str K) (p : LoadKey K × K) : Dict Str K :=
  d.set p.1.1 (if p.2 > d.getD p.1.1 0 then p.2 else d.getD p.1.1 0)

/-- assignment.py:266-284 `most_loaded_section` -/
def mostLoaded (load : Dict (LoadKey K) K) : Dict Str K := load.foldl maxStep []

end Shares

end Sidermit
