import Verif.Model.Network

/-!
Routes as objects with attributes that can be assigned.

`Route` has plain public attributes (network.py:39-44), so they can be assigned at any time and without a check, also when the route is in a
network; and `TransportNetwork` keeps the route objects themselves (network.py:303), with the names that they had when they were added in a
second list (network.py:304).  The model of `Model/Network` has the values of the routes; here the routes of a network are references to
objects.  Simplified: assigned values have the type of the attribute, the modes themselves do not change, and the attribute `_type` is not
assigned.
-/

namespace Sidermit

variable {K : Type}

/-- an assignment to a public attribute of a route (network.py:39-44) -/
inductive RouteAssign (K : Type)
  | id (n : Str)
  | mode (m : Mode K)
  | nodesI (l : List Int)
  | nodesR (l : List Int)
  | stopsI (l : List Int)
  | stopsR (l : List Int)

/-- the route after the assignment; nothing is checked -/
def RouteAssign.on (r : Route K) : RouteAssign K → Route K
  | .id n => { r with id := n }
  | .mode m => { r with mode := m }
  | .nodesI l => { r with nodesI := l }
  | .nodesR l => { r with nodesR := l }
  | .stopsI l => { r with stopsI := l }
  | .stopsR l => { r with stopsR := l }

/-- route objects, and a network that refers to them (network.py:195-203) -/
structure Depot (K : Type) where
  objects : Nat → Route K
  graph : Graph K
  refs : List Nat
  routeIds : List Str
  modes : List (Mode K)

namespace Depot

/-- the network with the present values of its routes -/
def shown (s : Depot K) : Network K := ⟨s.graph, s.refs.map s.objects, s.routeIds, s.modes⟩

/-- `route.attribute = value` for the route object `k` -/
def assign (s : Depot K) (k : Nat) (a : RouteAssign K) : Depot K :=
  { s with objects := fun i => if i = k then a.on (s.objects i) else s.objects i }

/-- network.py:227-237 `get_route`: the object -/
def getRoute (s : Depot K) (id : Str) : Py Nat :=
  if id ∈ s.routeIds then pyGet s.refs (s.routeIds.idxOf id) else .error .RouteIdNotFound

/-- network.py:308-319 `remove_route` -/
def removeRoute (s : Depot K) (id : Str) : Depot K × Option PyErr :=
  if id ∈ s.routeIds then
    let i := s.routeIds.idxOf id
    if i < s.refs.length then
      ({ s with routeIds := s.routeIds.eraseIdx i, refs := s.refs.eraseIdx i }, none)
    else ({ s with routeIds := s.routeIds.eraseIdx i }, some .IndexError)
  else (s, some .RouteIdNotFound)

/-- network.py:283-285, as `Network.removeLoop` -/
def removeLoop [DecidableEq K] (mode : Mode K) : Nat → Nat → Depot K → Depot K × Option PyErr
  | 0, _, s => (s, none)
  | fuel + 1, i, s =>
    match s.refs[i]? with
    | none => (s, none)
    | some k =>
      if (s.objects k).mode = mode then
        match s.removeRoute (s.objects k).id with
        | (s', none) => removeLoop mode fuel (i + 1) s'
        | (s', some e) => (s', some e)
      else removeLoop mode fuel (i + 1) s

/-- network.py:268-285 `remove_transport_mode` -/
def removeTransportMode [DecidableEq K] (s : Depot K) (mode : Mode K) : Depot K × Option PyErr :=
  removeLoop mode s.refs.length 0 { s with modes := s.modes.filter (· ≠ mode) }

/-- network.py:239-266 `add_transport_mode` -/
def addTransportMode [DecidableEq K] (s : Depot K) (mode : Mode K) : Depot K × Option PyErr :=
  if mode ∉ s.modes then
    match Network.checkModes s.modes mode with
    | .error e => (s, some e)
    | .ok true => ({ s with modes := s.modes ++ [mode] }, none)
    | .ok false => (s, some .TransportMode)
  else (s, none)

/-- network.py:301-306: the object is added, with the name that it has now -/
def register [DecidableEq K] (s : Depot K) (k : Nat) : Depot K × Option PyErr :=
  if (s.objects k).id ∉ s.routeIds then
    match s.addTransportMode (s.objects k).mode with
    | (s', some e) => (s', some e)
    | (s', none) => ({ s' with refs := s'.refs ++ [k], routeIds := s'.routeIds ++ [(s.objects k).id] }, none)
  else (s, some .RouteIdDuplicated)

/-- network.py:287-306 `add_route` -/
def addRoute [DecidableEq K] (s : Depot K) (k : Nat) : Depot K × Option PyErr :=
  match Network.pyOr (Network.edgesValidator s.graph (s.objects k).nodesI) (Network.edgesValidator s.graph (s.objects k).nodesR) with
  | .error e => (s, some e)
  | .ok true => s.register k
  | .ok false => (s, none)

end Depot

end Sidermit
