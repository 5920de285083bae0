import Verif.Model.Results

/-!
C84: a second description of the same city, lines and money: other units of length and of money, other names and numbers, and
the city drawn at another place.
-/

namespace Sidermit

/-- how the second description is obtained from the first: `len` units of length and `money` units of money of the second are one
of the first -/
structure Terms (K : Type) where
  node : Node K → Node K
  mode : Mode K → Mode K
  nodeId : Int → Int
  lineId : Str → Str
  len : K
  money : K

variable {K : Type}

/-- different things have different descriptions, lengths and speeds are multiplied by `len`, and all other properties that decide
on the ways of the passengers are kept -/
structure Terms.Shape [Field K] [LinearOrder K] [PyMath K] (u : Terms K) : Prop where
  len : 0 < u.len
  nodes : Function.Injective u.node
  modes : Function.Injective u.mode
  nodeIds : Function.Injective u.nodeId
  lineIds : Function.Injective u.lineId
  id : ∀ n, (u.node n).id = u.nodeId n.id
  width : ∀ n, (u.node n).width = u.len * n.width
  apart : ∀ a b, nodeDistance (u.node a) (u.node b) = u.len * nodeDistance a b
  name : ∀ m m', (u.mode m).name = (u.mode m').name ↔ m.name = m'.name
  v : ∀ m, (u.mode m).v = u.len * m.v
  theta : ∀ m, (u.mode m).theta = m.theta
  tat : ∀ m, (u.mode m).tat = m.tat
  d : ∀ m, (u.mode m).d = m.d

/-- and so are all other properties that are not money, but for the initial frequency -/
structure Terms.Keeps [Field K] [LinearOrder K] [PyMath K] (u : Terms K) : Prop extends u.Shape where
  bya : ∀ m, (u.mode m).bya = m.bya
  t : ∀ m, (u.mode m).t = m.t
  fmax : ∀ m, (u.mode m).fmax = m.fmax
  kmax : ∀ m, (u.mode m).kmax = m.kmax

/-- and money is multiplied by `money` -/
structure Terms.Bills [Field K] [LinearOrder K] [PyMath K] (u : Terms K) : Prop extends u.Keeps where
  money : 0 < u.money
  co : ∀ m, (u.mode m).co = u.money * m.co
  c1 : ∀ m, (u.mode m).c1 = u.money * m.c1
  c2 : ∀ m, (u.mode m).c2 = u.money / u.len * m.c2

/-- the initial frequencies are kept -/
def Terms.Starts (u : Terms K) : Prop := ∀ m, (u.mode m).fini = m.fini

/-- all this -/
structure Terms.Fair [Field K] [LinearOrder K] [PyMath K] (u : Terms K) : Prop extends u.Bills where
  fini : u.Starts

namespace Terms

/-! ### what the user hands in -/

/-- a line -/
def route (u : Terms K) (r : Route K) : Route K :=
  ⟨u.lineId r.id, u.mode r.mode, r.nodesI.map u.nodeId, r.nodesR.map u.nodeId, r.stopsI.map u.nodeId, r.stopsR.map u.nodeId,
    r.type⟩

/-- a table of frequencies -/
def frequencies (u : Terms K) (f : Dict Str K) : Dict Str K := f.map fun p => (u.lineId p.1, p.2)

/-- a matrix of trips -/
def trips (u : Terms K) (m : Dict Int (Dict Int K)) : Dict Int (Dict Int K) :=
  m.map fun p => (u.nodeId p.1, p.2.map fun q => (u.nodeId q.1, q.2))

variable [Field K]

/-- a city -/
def graph (u : Terms K) (g : Graph K) : Graph K :=
  { g with nodes := g.nodes.map u.node, l := g.l.map (u.len * ·), p := g.p.map (u.len * ·) }

/-- the demand -/
def demand (u : Terms K) (d : Demand K) : Demand K := ⟨u.graph d.graph, u.trips d.matrix, d.total⟩

/-- the passenger -/
def passenger (u : Terms K) (p : Passenger K) : Passenger K :=
  ⟨u.len * p.va, p.pv, p.pw, p.pa, p.pt, u.money * p.spv, u.money * p.spw, u.money * p.spa, p.spt⟩

/-- a network -/
def network (u : Terms K) (n : Network K) : Network K :=
  ⟨u.graph n.graph, n.routes.map u.route, n.routeIds.map u.lineId, n.modes.map u.mode⟩

/-! ### descriptions that are fair -/

/-- other units of length and money, other numbers of the nodes, other names of the lines and modes, and the city drawn at the
places that `T` tells -/
def standard (T : K × K → K × K) (nodeId : Int → Int) (lineId modeName : Str → Str) (len money : K) : Terms K where
  node n := { n with id := nodeId n.id, x := (T (n.x, n.y)).1, y := (T (n.x, n.y)).2, radius := len * n.radius,
                     width := len * n.width }
  mode m := { m with name := modeName m.name, co := money * m.co, c1 := money * m.c1, c2 := money / len * m.c2, v := len * m.v }
  nodeId := nodeId
  lineId := lineId
  len := len
  money := money

/-- only other units -/
def units (len money : K) : Terms K := standard (fun p => (len * p.1, len * p.2)) _root_.id _root_.id _root_.id len money

/-! ### what the optimizer gives back -/

/-- a result of the numerical optimization: the same frequencies, and the cost in the other money -/
def result (u : Terms K) (r : Res K) : Res K := { r with fn := r.fn.map (u.money * ·) }

/-- a row of the table of lines -/
def row (u : Terms K) (r : Row K) : Row K :=
  { r with id := u.lineId r.id, co := u.money * r.co,
           tableI := r.tableI.map fun p => (u.nodeId p.1, u.nodeId p.2.1, p.2.2),
           tableR := r.tableR.map fun p => (u.nodeId p.1, u.nodeId p.2.1, p.2.2) }

/-- the table of overall results -/
def overall (u : Terms K) (t : Overall K) : Overall K :=
  { t with vrc := u.money * t.vrc, operators := u.money * t.operators, infrastructure := u.money * t.infrastructure,
           users := u.money * t.users, fleet := t.fleet.map fun p => (u.mode p.1, p.2),
           sizes := t.sizes.map fun p => (u.mode p.1, p.2), lines := t.lines.map fun p => (u.mode p.1, p.2) }

end Terms

end Sidermit
