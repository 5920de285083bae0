import Verif.Model.Pajek
import Verif.Spec.City

/-!
What a city file is about, stated without the code that reads it: the rows of the nodes, the order of a city, and the
parameters that describe a list of nodes.
-/

namespace Sidermit

variable {K : Type}

/-- a word of a file: not empty and without white space -/
def IsWord (s : Str) : Prop := s ≠ [] ∧ ∀ c ∈ s, isSpace c = false

/-- the number is printed as a word that reads back as the same number -/
def ReadsBack [NumText K] (v : K) : Prop := NumText.parse (NumText.fmt v) = some v ∧ IsWord (NumText.fmt v : Str)

/-- the node can be written to a file: the name is a word, and coordinates and width read back -/
structure Writable [NumText K] (nd : Node K) : Prop where
  name : IsWord nd.name
  x : ReadsBack nd.x
  y : ReadsBack nd.y
  width : ReadsBack nd.width

/-- the list is that of a city with `n` zones: CBD, then periphery and subcentre of zones 1, 2, ..., n -/
structure CityOrder (ns : List (Node K)) (n : Nat) : Prop where
  len : ns.length = 2 * n + 1
  kind : ∀ j nd, ns[j]? = some nd → nd.kind = kindAt j
  zone : ∀ j nd, ns[j]? = some nd → nd.zone = zoneAt j

/-- subcentres and peripheries, in the order of the list -/
def subcentersOf (ns : List (Node K)) : List (Node K) := ns.filter fun nd => nd.kind = .subcenter
def peripheriesOf (ns : List (Node K)) : List (Node K) := ns.filter fun nd => nd.kind = .periphery

/-- the ids of the two nodes of every zone differ from those of the CBD and of the zones before -/
def IdsAcrossZones (ns : List (Node K)) : Prop :=
  ns.Pairwise fun a b => a.zone ≠ b.zone → a.id ≠ b.id

variable [Field K] [LinearOrder K]

/-- radius and angle of the CBD (0, 0 without one) -/
def centerOf (ns : List (Node K)) : K × K :=
  match ns.find? fun nd => nd.kind = .cbd with
  | some c => (c.radius, c.angle)
  | none => (0, 0)

/-- the direction of the subcentre is that of the CBD, up to a thousandth of a degree -/
def Aligned (ns : List (Node K)) (sc : Node K) : Prop :=
  (centerOf ns).2 - 1 / 1000 ≤ sc.angle ∧ sc.angle ≤ (centerOf ns).2 + 1 / 1000

instance (ns : List (Node K)) (sc : Node K) : Decidable (Aligned ns sc) := inferInstanceAs (Decidable (_ ∧ _))

/-- the last subcentre in the direction of the CBD -/
def towards (ns : List (Node K)) : Option (Node K) :=
  ((subcentersOf ns).filter fun sc => Aligned ns sc).getLast?

/-- mean radius of the subcentres (0 without zones) -/
def meanSc (ns : List (Node K)) : K := ((subcentersOf ns).map Node.radius).sum / ((subcentersOf ns).length : K)

/-- mean radius of the peripheries (0 without zones) -/
def meanP (ns : List (Node K)) : K := ((peripheriesOf ns).map Node.radius).sum / ((peripheriesOf ns).length : K)

/-- the nodes can be described by the parameters of a city: subcentres away from the origin, peripheries at least as far on
average, and the CBD not beyond the subcentre it lies towards -/
structure Describable (ns : List (Node K)) : Prop where
  away : subcentersOf ns ≠ [] → 0 < meanSc ns
  outside : meanSc ns ≤ meanP ns
  aligned : ∀ sc ∈ subcentersOf ns, Aligned ns sc → sc.radius ≠ 0
  inside : ∀ sc, towards ns = some sc → (centerOf ns).1 ≤ sc.radius

/-- the city with these nodes and the parameters that describe them -/
def describedCity (ns : List (Node K)) (n : Nat) : Graph K :=
  { nodes := ns, zones := cityZones n, edges := cityEdges n, n := some (n : Int)
    l := some (meanSc ns)
    g := some ((meanP ns - meanSc ns) / meanSc ns)
    p := some ((ns.getLast?.map Node.width).getD 0)
    etha := (towards ns).map fun sc => (centerOf ns).1 / sc.radius
    ethaZone := (towards ns).map Node.zone
    angles := some ((subcentersOf ns).map Node.angle)
    gi := some ((subcentersOf ns).map fun sc => sc.radius / meanSc ns)
    hi := some ((peripheriesOf ns).map fun p => p.radius / meanP ns) }

/-- the node satisfies the checks of its constructor -/
structure NodeOk (nd : Node K) : Prop where
  cbd : nd.kind = .cbd → nd.zone = 0
  radius : 0 ≤ nd.radius
  angle : 0 ≤ nd.angle ∧ nd.angle ≤ 360
  width : 0 ≤ nd.width

/-- the node is that of the row: radius and angle are those of the coordinates -/
structure NodeOfRow [PyMath K] [NumText K] (r : FileRow) (nd : Node K) : Prop where
  id : nd.id = r.id
  name : nd.name = r.name
  kind : nd.kind = r.kind
  zone : nd.zone = r.zone
  x : NumText.parse r.x = some nd.x
  y : NumText.parse r.y = some nd.y
  width : NumText.parse r.width = some nd.width
  radius : nd.radius = PyMath.sqrt (nd.x ^ 2 + nd.y ^ 2)
  angle : getAngle nd.x nd.y = .ok nd.angle

/-- the line is the text of the row: seven words, the first and the sixth integers, the fifth a type -/
def LineOfRow (line : Str) (r : FileRow) : Prop :=
  ∃ i z, splitWs line = [i, r.name, r.x, r.y, r.kind.text, z, r.width] ∧ pyInt i = some r.id ∧ pyInt z = some r.zone

/-- the same node, with radius and angle those of the coordinates -/
structure Remeasured [PyMath K] (nd nd' : Node K) : Prop where
  id : nd'.id = nd.id
  name : nd'.name = nd.name
  kind : nd'.kind = nd.kind
  zone : nd'.zone = nd.zone
  x : nd'.x = nd.x
  y : nd'.y = nd.y
  width : nd'.width = nd.width
  radius : nd'.radius = PyMath.sqrt (nd.x ^ 2 + nd.y ^ 2)
  angle : getAngle nd.x nd.y = .ok nd'.angle

end Sidermit
