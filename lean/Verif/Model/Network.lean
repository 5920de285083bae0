import Verif.Model.Graph
import Verif.Model.Mode

/-!
Model of `sidermit/publictransportsystem/network.py`.

Route ids are texts.  Mode objects are compared by identity in the code; a `Mode` value carries its identity `oid`, and the
attributes of the modes and routes held by a network are not reassigned, so equality of `Mode` values is identity.
-/

namespace Sidermit

variable {K : Type}

/-- network.py:15-22 `RouteType` -/
inductive RouteType
  | custom | predefined | circular
  deriving DecidableEq, Repr

/-- network.py:39-45: the attributes of a `Route` -/
structure Route (K : Type) where
  id : Str
  mode : Mode K
  nodesI : List Int
  nodesR : List Int
  stopsI : List Int
  stopsR : List Int
  type : RouteType
  deriving DecidableEq, Repr

/-! ### text of sequences -/

/-- network.py:109-113: one pass of the loop of `sequences_to_string` -/
def addToSequence (line : Str) (node : Int) : Str :=
  if line = [] then line ++ showInt node else line ++ ',' :: showInt node

/-- network.py:102-114 `sequences_to_string` -/
def sequencesToString (l : List Int) : Str := l.foldl addToSequence []

/-- network.py:129-130: `int(node.rstrip("\n"))` -/
def parseNode (s : Str) : Py Int :=
  match pyInt (rstripNewline s) with
  | some i => .ok i
  | none => .error .ValueError

/-- network.py:117-132 `sequences_to_list`; `none` is Python's `None` -/
def sequencesToList (s : Option Str) : Py (List Int) :=
  match s with
  | none => .ok []
  | some [] => .ok []
  | some s => (splitOn ',' s).mapM parseNode

/-! ### validators -/

/-- network.py:135-156 `stops_validator` -/
def stopsValidator (nodes stops : List Int) : Py Unit := do
  raiseIf (stops = []) .StopSequenceIsNotValid
  raiseIf (∃ s ∈ stops, s ∉ nodes) .StopsSequences
  raiseIf (nodes.head? ≠ stops.head?) .FirstStopIsNotValid
  raiseIf (nodes.getLast? ≠ stops.getLast?) .LastStopIsNotValid

/-- network.py:159-172 `direction_validator` -/
def directionValidator (nodesI nodesR : List Int) : Py Unit := do
  raiseIf (nodesI = [] ∨ nodesR = []) .NodeSequencesIsNotValid
  raiseIf (nodesI.head? ≠ nodesR.getLast? ∨ nodesR.head? ≠ nodesI.getLast?) .NotCycle

/-- network.py:175-190 `sequences_validator` -/
def sequencesValidator (sequence : List Int) : Py Unit :=
  raiseIf (∃ a ∈ sequence, sequence.count a > 1) .NodeSequencesIsNotValid

/-- network.py:77-99 `parameters_validator` (the check that `mode_obj` is a mode is ruled out by the types); the four
sequences are returned, since the constructor converts them again (72-75) -/
def routeValidator (nodesI nodesR stopsI stopsR : Option Str) : Py (List Int × List Int × List Int × List Int) := do
  let ni ← sequencesToList nodesI
  let nr ← sequencesToList nodesR
  let si ← sequencesToList stopsI
  let sr ← sequencesToList stopsR
  directionValidator ni nr
  stopsValidator ni si
  stopsValidator nr sr
  sequencesValidator ni
  sequencesValidator nr
  return (ni, nr, si, sr)

/-- `x is None or x == ""` -/
def noText (s : Option Str) : Prop := s = none ∨ s = some []

instance (s : Option Str) : Decidable (noText s) := inferInstanceAs (Decidable (_ ∨ _))

/-- network.py:56-63: the unchecked construction of predefined and circular routes -/
def mkPredefined (id : Str) (mode : Mode K) (nodesI nodesR stopsI stopsR : Option Str) (type : RouteType) :
    Py (Route K) := do
  let ni ← sequencesToList nodesI
  let nr ← sequencesToList nodesR
  let si ← sequencesToList stopsI
  let sr ← sequencesToList stopsR
  return { id, mode, nodesI := ni, nodesR := nr, stopsI := si, stopsR := sr, type }

/-- network.py:65-75 -/
def mkCustom (id : Str) (mode : Mode K) (nodesI nodesR stopsI stopsR : Option Str) : Py (Route K) := do
  let (ni, nr, si, sr) ← routeValidator nodesI nodesR stopsI stopsR
  return { id, mode, nodesI := ni, nodesR := nr, stopsI := si, stopsR := sr, type := .custom }

/-- network.py:53-54 -/
def routeIdOf (id : Option Str) : Py Str :=
  match id with
  | none => .error .RouteIdIsNotValid
  | some s => .ok s

/-- network.py:27-75 `Route.__init__` -/
def mkRoute (id : Option Str) (mode : Mode K) (nodesI nodesR stopsI stopsR : Option Str)
    (type : RouteType := .custom) : Py (Route K) := do
  raiseIf (type = .custom ∧ (noText nodesI ∨ noText nodesR)) .NodeSequencesIsNotValid
  raiseIf (type = .custom ∧ (noText stopsI ∨ noText stopsR)) .StopSequenceIsNotValid
  let id ← routeIdOf id
  if type = .predefined ∨ type = .circular then mkPredefined id mode nodesI nodesR stopsI stopsR type
  else mkCustom id mode nodesI nodesR stopsI stopsR

/-! ### the network -/

/-- network.py:195-203: the attributes of a `TransportNetwork` -/
structure Network (K : Type) where
  graph : Graph K
  routes : List (Route K)
  routeIds : List Str
  modes : List (Mode K)
  deriving DecidableEq, Repr

/-- network.py:195-203 -/
def Network.init (g : Graph K) : Network K := { graph := g, routes := [], routeIds := [], modes := [] }

namespace Network

/-- network.py:205-215 `__edges_validator`: `True`, or an exception -/
def edgesValidator (g : Graph K) (nodes : List Int) : Py Bool :=
  if (pairs nodes).all (fun p => g.edgeExist p.1 p.2) then .ok true else .error .NodeSequencesIsNotValid

/-- Python `a or b`: the second operand is evaluated only when the first is false -/
def pyOr (a : Py Bool) (b : Py Bool) : Py Bool :=
  match a with
  | .error e => .error e
  | .ok true => .ok true
  | .ok false => b

/-- network.py:227-237 `get_route` -/
def getRoute (s : Network K) (id : Str) : Py (Route K) :=
  if id ∈ s.routeIds then pyGet s.routes (s.routeIds.idxOf id) else .error .RouteIdNotFound

/-- network.py:255-257: one pass of the loop that collects the modes -/
def collectMode [DecidableEq K] (acc : List (Mode K)) (m : Mode K) : List (Mode K) :=
  if m ∈ acc then acc else acc ++ [m]

/-- network.py:259-260: `mode_manager.add_mode(modes)` for each mode, stopping at the first exception -/
def addAll : ModeManager K → List (Mode K) → Py (ModeManager K)
  | mgr, [] => .ok mgr
  | mgr, m :: t => match mgr.addMode m with
    | (mgr', none) => addAll mgr' t
    | (_, some e) => .error e

/-- network.py:251-262: the check of the modes before registering `mode` -/
def checkModes [DecidableEq K] (modes : List (Mode K)) (mode : Mode K) : Py Bool := do
  let mgr ← addAll { names := [], modes := [] } (modes.foldl collectMode [mode])
  mgr.isValidToAssignmentStep

/-- network.py:239-266 `add_transport_mode` -/
def addTransportMode [DecidableEq K] (s : Network K) (mode : Mode K) : Network K × Option PyErr :=
  if mode ∉ s.modes then
    match checkModes s.modes mode with
    | .error e => (s, some e)
    | .ok true => ({ s with modes := s.modes ++ [mode] }, none)
    | .ok false => (s, some .TransportMode)
  else (s, none)

/-- network.py:308-319 `remove_route` (the two lists have the same length in every reachable state) -/
def removeRoute (s : Network K) (id : Str) : Network K × Option PyErr :=
  if id ∈ s.routeIds then
    let i := s.routeIds.idxOf id
    if i < s.routes.length then
      ({ s with routeIds := s.routeIds.eraseIdx i, routes := s.routes.eraseIdx i }, none)
    else ({ s with routeIds := s.routeIds.eraseIdx i }, some .IndexError)
  else (s, some .RouteIdNotFound)

/-- network.py:283-285: `for route in self.__routes: ...` while `remove_route` removes elements from that list.  Python
keeps a position `i` and stops when it reaches the current length.  `fuel` bounds the number of passes: it is the initial
length minus `i`, and the list never grows. -/
def removeLoop [DecidableEq K] (mode : Mode K) : Nat → Nat → Network K → Network K × Option PyErr
  | 0, _, s => (s, none)
  | fuel + 1, i, s =>
    match s.routes[i]? with
    | none => (s, none)
    | some r =>
      if r.mode = mode then
        match s.removeRoute r.id with
        | (s', none) => removeLoop mode fuel (i + 1) s'
        | (s', some e) => (s', some e)
      else removeLoop mode fuel (i + 1) s

/-- network.py:268-285 `remove_transport_mode` -/
def removeTransportMode [DecidableEq K] (s : Network K) (mode : Mode K) : Network K × Option PyErr :=
  removeLoop mode s.routes.length 0 { s with modes := s.modes.filter (· ≠ mode) }

/-- network.py:301-306 -/
def register [DecidableEq K] (s : Network K) (r : Route K) : Network K × Option PyErr :=
  if r.id ∉ s.routeIds then
    match s.addTransportMode r.mode with
    | (s', some e) => (s', some e)
    | (s', none) => ({ s' with routes := s'.routes ++ [r], routeIds := s'.routeIds ++ [r.id] }, none)
  else (s, some .RouteIdDuplicated)

/-- network.py:287-306 `add_route` -/
def addRoute [DecidableEq K] (s : Network K) (r : Route K) : Network K × Option PyErr :=
  match pyOr (edgesValidator s.graph r.nodesI) (edgesValidator s.graph r.nodesR) with
  | .error e => (s, some e)
  | .ok true => s.register r
  | .ok false => (s, none)

/-! ### predefined routes -/

/-- `node.id` of the node at a position of the node list -/
def nodeId (g : Graph K) (i : Nat) : Py Int := do
  let nd ← pyGet g.nodes i
  return nd.id

/-- `"{},{},...".format(a, b, ...)` -/
def seqText (l : List Int) : Str := joinWith ',' (l.map showInt)

/-- `zones[i]` for an integer index (negative indices count from the end) -/
def zoneAtIndex (zones : List Zone) (i : Int) : Py Zone :=
  if 0 ≤ i then pyGet zones i.toNat
  else if (-i).toNat ≤ zones.length then pyGet zones (zones.length - (-i).toNat)
  else .error .IndexError

/-- network.py:377-384: one pass of the loop of `get_circular_routes` -/
def circularStep (g : Graph K) (acc : Str × Str) (i : Nat) : Py (Str × Str) := do
  let zi ← pyGet g.zones i
  let zr ← pyGet g.zones (g.zones.length - 1 - i)
  let a ← nodeId g zi.subcenter
  let b ← nodeId g zr.subcenter
  if acc.1 = [] then return (acc.1 ++ showInt a, acc.2 ++ showInt b)
  else return (acc.1 ++ ',' :: showInt a, acc.2 ++ ',' :: showInt b)

/-- network.py:353-395 `get_circular_routes` -/
def circularRoutes (s : Network K) (mode : Mode K) : Py (List (Route K)) := do
  raiseIf (s.graph.zones.length ≤ 1) .CircularRouteIsNotValid
  let idI := "CIR_I_".toList ++ mode.name
  let idR := "CIR_R_".toList ++ mode.name
  let seqs ← (List.range s.graph.zones.length).foldlM (circularStep s.graph) ([], [])
  let z0 ← pyGet s.graph.zones 0
  let zn ← pyGet s.graph.zones (s.graph.zones.length - 1)
  let a ← nodeId s.graph z0.subcenter
  let b ← nodeId s.graph zn.subcenter
  let seqI := seqs.1 ++ ',' :: showInt a
  let seqR := seqs.2 ++ ',' :: showInt b
  let r1 ← mkRoute (some idI) mode (some seqI) (some []) (some seqI) (some []) .circular
  let r2 ← mkRoute (some idR) mode (some []) (some seqR) (some []) (some seqR) .circular
  return [r1, r2]

/-- `"{}_{}_{}".format(prefix, mode_name, zone.id)` -/
def routeName (pre : Str) (mode : Mode K) (zid : Int) : Str := pre ++ '_' :: mode.name ++ '_' :: showInt zid

/-- the last lines of the loops of the generators -/
def predefinedRoute (id : Str) (mode : Mode K) (ni nr si sr : Str) : Py (Route K) :=
  mkRoute (some id) mode (some ni) (some nr) (some si) (some sr) .predefined

/-- network.py:411-424: one zone of `get_feeder_routes` -/
def feederRoute (g : Graph K) (mode : Mode K) (z : Zone) : Py (Route K) := do
  let p ← nodeId g z.periphery
  let sc ← nodeId g z.subcenter
  predefinedRoute (routeName "F".toList mode z.id) mode (seqText [p, sc]) (seqText [sc, p]) (seqText [p, sc])
    (seqText [sc, p])

/-- network.py:397-426 `get_feeder_routes` -/
def feederRoutes (s : Network K) (mode : Mode K) : Py (List (Route K)) :=
  s.graph.zones.mapM (feederRoute s.graph mode)

/-- network.py:448-475: one zone of `get_radial_routes` -/
def radialRoute (g : Graph K) (mode : Mode K) (short express : Bool) (c : Int) (z : Zone) : Py (Route K) := do
  let p ← nodeId g z.periphery
  let sc ← nodeId g z.subcenter
  if short then
    predefinedRoute (routeName "RS".toList mode z.id) mode (seqText [sc, c]) (seqText [c, sc]) (seqText [sc, c])
      (seqText [c, sc])
  else if express then
    predefinedRoute (routeName "RE".toList mode z.id) mode (seqText [p, sc, c]) (seqText [c, sc, p]) (seqText [p, c])
      (seqText [c, p])
  else
    predefinedRoute (routeName "R".toList mode z.id) mode (seqText [p, sc, c]) (seqText [c, sc, p])
      (seqText [p, sc, c]) (seqText [c, sc, p])

/-- `self.__graph_obj.get_cbd().id` -/
def cbdId (g : Graph K) : Py Int :=
  match g.getCbd with
  | none => .error .AttributeError
  | some c => .ok c.id

/-- network.py:428-477 `get_radial_routes` -/
def radialRoutes (s : Network K) (mode : Mode K) (short express : Bool) : Py (List (Route K)) := do
  let c ← cbdId s.graph
  s.graph.zones.mapM (radialRoute s.graph mode short express c)

/-- network.py:516-519 and 594-597: the zone `jump` places further -/
def zone2Id (n : Nat) (zid jump : Int) : Int := if zid + jump ≤ n then zid + jump else zid + jump - n

/-- network.py:504-506 and 582-584: how many zones start a route -/
def lastZone (n : Nat) (jump : Int) : Nat := if n % 2 = 0 ∧ jump = (n / 2 : Nat) then n / 2 else n

/-- `"{}{}_{}_{}".format(prefix, jump, mode_name, zone.id)` -/
def jumpName (pre : Str) (jump : Int) (mode : Mode K) (zid : Int) : Str := routeName (pre ++ showInt jump) mode zid

/-- network.py:510-555: one zone of `get_diametral_routes` -/
def diametralRoute (g : Graph K) (mode : Mode K) (jump : Int) (short express : Bool) (c : Int) (z : Zone) :
    Py (Route K) := do
  let p ← nodeId g z.periphery
  let sc ← nodeId g z.subcenter
  let z2 ← zoneAtIndex g.zones (zone2Id g.zones.length z.id jump - 1)
  let p2 ← nodeId g z2.periphery
  let sc2 ← nodeId g z2.subcenter
  if short then
    if express then
      predefinedRoute (jumpName "DSE".toList jump mode z.id) mode (seqText [sc, c, sc2]) (seqText [sc2, c, sc])
        (seqText [sc, sc2]) (seqText [sc2, sc])
    else
      predefinedRoute (jumpName "DS".toList jump mode z.id) mode (seqText [sc, c, sc2]) (seqText [sc2, c, sc])
        (seqText [sc, c, sc2]) (seqText [sc2, c, sc])
  else
    if express then
      predefinedRoute (jumpName "DE".toList jump mode z.id) mode (seqText [p, sc, c, sc2, p2])
        (seqText [p2, sc2, c, sc, p]) (seqText [p, p2]) (seqText [p2, p])
    else
      predefinedRoute (jumpName "D".toList jump mode z.id) mode (seqText [p, sc, c, sc2, p2])
        (seqText [p2, sc2, c, sc, p]) (seqText [p, sc, c, sc2, p2]) (seqText [p2, sc2, c, sc, p])

/-- network.py:479-557 `get_diametral_routes`: `jump > len(zones) / 2` is true division -/
def diametralRoutes (s : Network K) (mode : Mode K) (jump : Int) (short express : Bool) : Py (List (Route K)) := do
  let c ← cbdId s.graph
  raiseIf (2 * jump > s.graph.zones.length ∨ jump ≤ 0) .JumpIsNotValid
  (s.graph.zones.take (lastZone s.graph.zones.length jump)).mapM (diametralRoute s.graph mode jump short express c)

/-- `range(a, b)` -/
def intRange (a b : Int) : List Int := (List.range (b - a).toNat).map fun (i : Nat) => a + (i : Int)

/-- network.py:605-617: the zones strictly between the two ends -/
def betweenZones (n : Nat) (zid zid2 jump : Int) : List Int :=
  let l1 := if zid2 > zid ∧ jump ≠ 1 then intRange (zid + 1) zid2 else []
  let l2 := if zid2 < zid then
      (if zid ≠ n then intRange (zid + 1) ((n : Int) + 1) else []) ++ intRange 1 zid2
    else []
  l1 ++ l2

/-- network.py:626-631 (and 643-648, 659-664, 673-678): one pass of the loop over the zones in between -/
def tangStep (g : Graph K) (between : List Int) (acc : Str × Str) (i : Nat) : Py (Str × Str) := do
  let id3 ← pyGet between i
  let id4 ← pyGet between (between.length - 1 - i)
  let z3 ← zoneAtIndex g.zones (id3 - 1)
  let z4 ← zoneAtIndex g.zones (id4 - 1)
  let a ← nodeId g z3.subcenter
  let b ← nodeId g z4.subcenter
  return (acc.1 ++ ',' :: showInt a, acc.2 ++ ',' :: showInt b)

/-- network.py:588-686: one zone of `get_tangencial_routes` -/
def tangentialRoute (g : Graph K) (mode : Mode K) (jump : Int) (short express : Bool) (z : Zone) : Py (Route K) := do
  let p ← nodeId g z.periphery
  let sc ← nodeId g z.subcenter
  let z2 ← zoneAtIndex g.zones (zone2Id g.zones.length z.id jump - 1)
  let p2 ← nodeId g z2.periphery
  let sc2 ← nodeId g z2.subcenter
  let between := betweenZones g.zones.length z.id (zone2Id g.zones.length z.id jump) jump
  if short then
    let seqs ← (List.range between.length).foldlM (tangStep g between) (seqText [sc], seqText [sc2])
    let ni := seqs.1 ++ ',' :: seqText [sc2]
    let nr := seqs.2 ++ ',' :: seqText [sc]
    if express then
      predefinedRoute (jumpName "TSE".toList jump mode z.id) mode ni nr (seqText [sc, sc2]) (seqText [sc2, sc])
    else
      predefinedRoute (jumpName "TS".toList jump mode z.id) mode ni nr ni nr
  else
    let seqs ← (List.range between.length).foldlM (tangStep g between) (seqText [p, sc], seqText [p2, sc2])
    let ni := seqs.1 ++ ',' :: seqText [sc2, p2]
    let nr := seqs.2 ++ ',' :: seqText [sc, p]
    if express then
      predefinedRoute (jumpName "TE".toList jump mode z.id) mode ni nr (seqText [p, p2]) (seqText [p2, p])
    else
      predefinedRoute (jumpName "T".toList jump mode z.id) mode ni nr ni nr

/-- network.py:559-688 `get_tangencial_routes` -/
def tangentialRoutes (s : Network K) (mode : Mode K) (jump : Int) (short express : Bool) : Py (List (Route K)) := do
  raiseIf (2 * jump > s.graph.zones.length ∨ jump ≤ 0) .JumpIsNotValid
  (s.graph.zones.take (lastZone s.graph.zones.length jump)).mapM (tangentialRoute s.graph mode jump short express)

end Network

end Sidermit
