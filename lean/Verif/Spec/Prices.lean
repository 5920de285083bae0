import Verif.Model.Results

/-!
C85: what a solution uses, and what it costs at given prices.
-/

namespace Sidermit

variable {K : Type}

/-- what the operators, the city and the users spend with given frequencies -/
structure Usage (K : Type) where
  /-- of each running line: its mode, its vehicles, and the places in these -/
  lines : List (Mode K × K × K)
  /-- of each mode: the length of its streets, for all its lanes -/
  streets : List (Mode K × K)
  /-- hours walking to and from stops -/
  access : K
  /-- hours waiting -/
  wait : K
  /-- hours in vehicles -/
  ride : K
  /-- transfers -/
  changes : K

/-- prices of all this -/
structure Prices (K : Type) where
  vehicle : Mode K → K
  place : Mode K → K
  street : Mode K → K
  access : K
  wait : K
  ride : K
  change : K

/-- new prices: what is added to each price of the mode objects, and the social values of the passenger -/
structure Change (K : Type) where
  co : Nat → K
  c1 : Nat → K
  c2 : Nat → K
  spv : K
  spw : K
  spa : K
  spt : K

section

variable [Field K] [LinearOrder K]

/-- the sum of all that is used, each times its price -/
def Prices.bill (p : Prices K) (s : Usage K) : K :=
  (s.lines.map fun l => p.vehicle l.1 * l.2.1 + p.place l.1 * l.2.2).sum + (s.streets.map fun l => p.street l.1 * l.2).sum +
    (p.access * s.access + p.wait * s.wait + p.ride * s.ride + p.change * s.changes)

/-- the vehicles of the lines of a mode object -/
def Usage.vehicles (s : Usage K) (i : Nat) : K := ((s.lines.filter fun l => l.1.oid = i).map fun l => l.2.1).sum

/-- the places in these -/
def Usage.places (s : Usage K) (i : Nat) : K := ((s.lines.filter fun l => l.1.oid = i).map fun l => l.2.2).sum

/-- the streets of a mode object -/
def Usage.roads (s : Usage K) (i : Nat) : K := ((s.streets.filter fun l => l.1.oid = i).map fun l => l.2).sum

/-- the prices in the modes and the passenger.  A transfer counts as so many minutes in a vehicle as the passenger says. -/
def Prices.of (pas : Passenger K) : Prices K :=
  ⟨Mode.co, Mode.c1, Mode.c2, pas.spa, pas.spw, pas.spv, pas.spt / 60 * pas.spv⟩

namespace Change

def mode (c : Change K) (m : Mode K) : Mode K :=
  { m with co := m.co + c.co m.oid, c1 := m.c1 + c.c1 m.oid, c2 := m.c2 + c.c2 m.oid }

def route (c : Change K) (r : Route K) : Route K := { r with mode := c.mode r.mode }

def network (c : Change K) (n : Network K) : Network K :=
  { n with routes := n.routes.map c.route, modes := n.modes.map c.mode }

def passenger (c : Change K) (p : Passenger K) : Passenger K := { p with spv := c.spv, spw := c.spw, spa := c.spa, spt := c.spt }

/-- the same things used by modes with the new prices -/
def usage (c : Change K) (s : Usage K) : Usage K :=
  { s with lines := s.lines.map fun l => (c.mode l.1, l.2), streets := s.streets.map fun l => (c.mode l.1, l.2) }

/-- by how much each price rises -/
def rise (c : Change K) (pas : Passenger K) : Prices K :=
  ⟨fun m => c.co m.oid, fun m => c.c1 m.oid, fun m => c.c2 m.oid, c.spa - pas.spa, c.spw - pas.spw, c.spv - pas.spv,
    c.spt / 60 * c.spv - pas.spt / 60 * pas.spv⟩

end Change

variable [PyMath K]

/-- what is used for given frequencies in the order of the lines -/
def Optimizer.usage (o : Optimizer K) (x : List K) : Py (Usage K) := do
  let f ← foptToF o.lines x
  let t ← o.loads f
  let times ← linesTravelTime o.net.routes o.graph.edgesDistance
  let c := getCycleTime t.z t.v o.net.routes times
  let u ← resourcesConsumer (allNodes o.ext.nodes).length f o.ext o.pas.va c.z c.v o.pairs
  return ⟨(o.net.routes.filter fun r => f.getD r.id 0 ≠ 0).map fun r =>
      (r.mode, f.getD r.id 0 * c.time.getD r.id 0, (getK t.load).getD r.id 0 * (f.getD r.id 0 * c.time.getD r.id 0)),
    modeDistance o.graph o.net.routes o.net.modes f, u.ta, u.te, u.tv, u.t⟩

/-- of the frequencies in `A` none has a smaller objective than `x` -/
structure Best (o : Optimizer K) (A : Set (List K)) (x : List K) (v : K) : Prop where
  mem : x ∈ A
  value : o.vrc x = .ok v
  best : ∀ y ∈ A, ∀ w, o.vrc y = .ok w → v ≤ w

/-- the frequencies that keep all the constraints -/
def Feasible (o : Optimizer K) : Set (List K) :=
  {x | x.length = o.lines.length ∧ (∀ q ∈ x, 0 ≤ q) ∧ ∃ v, o.constrains x = .ok v ∧ ∀ w ∈ v, w ≤ 0}

end

end Sidermit
