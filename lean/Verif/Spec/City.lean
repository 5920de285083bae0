import Verif.Model.Graph

/-!
What a city looks like, stated without the construction code: a numbered list of nodes (CBD, then periphery and
subcentre of every zone) and the streets between them.
-/

namespace Sidermit

/-- class of the node at position `j` of the node list -/
def kindAt (j : Nat) : Kind := if j = 0 then .cbd else if j % 2 = 1 then .periphery else .subcenter

/-- zone of the node at position `j`: 0 for the CBD, then 1, 1, 2, 2, ... -/
def zoneAt (j : Nat) : Int := ((j + 1) / 2 : Nat)

/-- zones of a city with `n` zones -/
def cityZones (n : Nat) : List Zone :=
  (List.range n).map fun (i : Nat) => { id := (i : Int) + 1, periphery := 2 * i + 1, subcenter := 2 * i + 2 }

/-- edges get the ids `k, k+1, ...` -/
def numberEdges (k : Nat) : List (Nat × Nat) → List Edge
  | [] => []
  | pr :: t => { id := k, node1 := pr.1, node2 := pr.2 } :: numberEdges (k + 1) t

/-- the edge list of a city with `n` zones -/
def cityEdges (n : Nat) : List Edge := numberEdges 1 (edgePairs (cityZones n))

/-- A well formed city with `n` zones. -/
structure CityShape {K : Type} (g : Graph K) (n : Nat) : Prop where
  n_eq : g.n = some (n : Int)
  len : g.nodes.length = 2 * n + 1
  kind : ∀ j nd, g.nodes[j]? = some nd → nd.kind = kindAt j
  zone : ∀ j nd, g.nodes[j]? = some nd → nd.zone = zoneAt j
  zones : g.zones = cityZones n
  edges : g.edges = cityEdges n

/-- all nodes have different ids -/
def DistinctIds {K : Type} (g : Graph K) : Prop := (g.nodes.map Node.id).Nodup

/-- zones `z` and `w` (numbered `1..n`) are cyclic neighbours -/
def NeighbourZones (n : Nat) (z w : Int) : Prop :=
  z ≠ w ∧ ((w - z) % (n : Int) = 1 % (n : Int) ∨ (z - w) % (n : Int) = 1 % (n : Int))

/-- **Streets of the city** (documentation of `Graph`): periphery and subcentre of one zone, subcentre and CBD,
subcentres of neighbouring zones. -/
def Street {K : Type} (n : Nat) (a b : Node K) : Prop :=
  (a.kind = .periphery ∧ b.kind = .subcenter ∧ a.zone = b.zone) ∨
  (a.kind = .subcenter ∧ b.kind = .periphery ∧ a.zone = b.zone) ∨
  (a.kind = .subcenter ∧ b.kind = .cbd) ∨
  (a.kind = .cbd ∧ b.kind = .subcenter) ∨
  (a.kind = .subcenter ∧ b.kind = .subcenter ∧ NeighbourZones n a.zone b.zone)

/-- the same relation on positions in the node list -/
def StreetIdx (n a b : Nat) : Prop :=
  (∃ i, i < n ∧ ((a = 2 * i + 1 ∧ b = 2 * i + 2) ∨ (a = 2 * i + 2 ∧ b = 2 * i + 1) ∨
    (a = 2 * i + 2 ∧ b = 0) ∨ (a = 0 ∧ b = 2 * i + 2))) ∨
  (∃ i, i < n ∧ 2 ≤ n ∧
    ((a = 2 * i + 2 ∧ b = 2 * (if i = n - 1 then 0 else i + 1) + 2) ∨
     (a = 2 * (if i = n - 1 then 0 else i + 1) + 2 ∧ b = 2 * i + 2)))

/-- Geometry of a city: direction of every zone, radius of its periphery and of its subcentre, radius and direction of
the CBD (zones counted from 0). -/
structure Geo (K : Type) where
  ang : Nat → K
  rp : Nat → K
  rsc : Nat → K
  rc : K
  ac : K

/-- The node at position `j` of a city with geometry `geo` and node width `w`. -/
def nodeAt {K : Type} [Field K] [PyMath K] (geo : Geo K) (w : K) (j : Nat) : Node K :=
  if j = 0 then
    { id := 0, x := geo.rc * PyMath.cosDeg geo.ac, y := geo.rc * PyMath.sinDeg geo.ac, radius := geo.rc,
      angle := geo.ac, width := w, zone := 0, name := "CBD".toList, kind := .cbd }
  else
    let i := (j - 1) / 2
    if j % 2 = 1 then
      { id := j, x := geo.rp i * PyMath.cosDeg (geo.ang i), y := geo.rp i * PyMath.sinDeg (geo.ang i),
        radius := geo.rp i, angle := geo.ang i, width := w, zone := i + 1,
        name := "P_".toList ++ showInt (i + 1), kind := .periphery }
    else
      { id := j, x := geo.rsc i * PyMath.cosDeg (geo.ang i), y := geo.rsc i * PyMath.sinDeg (geo.ang i),
        radius := geo.rsc i, angle := geo.ang i, width := w, zone := i + 1,
        name := "SC_".toList ++ showInt (i + 1), kind := .subcenter }

/-- all the nodes -/
def cityNodes {K : Type} [Field K] [PyMath K] (geo : Geo K) (w : K) (n : Nat) : List (Node K) :=
  (List.range (2 * n + 1)).map (nodeAt geo w)

/-- **The documented geometry**: directions equally spaced or as given; subcentres at radius `l` (times `Gi`),
peripheries at `l + g*l` (times `Hi`); the CBD at the fraction `etha` of the way to the subcentre of `ethaZone`. -/
def docGeo {K : Type} [Field K] (n : Nat) (l g : K) (etha : Option K) (ethaZone : Option Int)
    (angles gi hi : Option (List K)) : Geo K :=
  let ang := fun i => match angles with | none => 360 / (n : K) * (i : K) | some a => a.getD i 0
  let rsc := fun i => match gi with | none => l | some a => a.getD i 0 * l
  let rp := fun i => match hi with | none => l + g * l | some a => a.getD i 0 * (l + g * l)
  { ang, rp, rsc,
    rc := match etha, ethaZone with | some e, some z => e * rsc (z - 1).toNat | _, _ => 0
    ac := match etha, ethaZone with | some _, some z => ang (z - 1).toNat | _, _ => 0 }

/-- The documented conditions on the parameters of a city. -/
structure CityParamsOk {K : Type} [Field K] [LinearOrder K] (n : Int) (l g p : K) (etha : Option K) (ethaZone : Option Int)
    (angles gi hi : Option (List K)) : Prop where
  n_nonneg : 0 ≤ n
  l_nonneg : 0 ≤ l
  g_nonneg : 0 ≤ g
  p_nonneg : 0 ≤ p
  etha_ok : (etha = none ∧ ethaZone = none) ∨
    ∃ e z, etha = some e ∧ ethaZone = some z ∧ 0 ≤ e ∧ e ≤ 1 ∧ 1 ≤ z ∧ z ≤ n
  angles_ok : ∀ a, angles = some a → (a.length : Int) = n ∧ ∀ x ∈ a, 0 ≤ x ∧ x ≤ 360
  gi_ok : ∀ a, gi = some a → (a.length : Int) = n ∧ ∀ x ∈ a, 0 ≤ x
  hi_ok : ∀ a, hi = some a → (a.length : Int) = n ∧ ∀ x ∈ a, 0 ≤ x

end Sidermit
