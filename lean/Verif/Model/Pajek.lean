import Verif.Model.Graph
import Mathlib.Data.List.Sort

/-!
Model of the Pajek text of a city: `export_graph`, `__pajekfile_to_dataframe`, `build_from_content` and `build_from_file` of
`sidermit/city/graph.py`.  The only format is Pajek (the enumeration has no other value), so the check of the format is left
out; the bytes of the file are in `Model.Files`.
-/

namespace Sidermit

variable {K : Type}

/-! ### export -/

/-- graph.py:229-235: the name of the class of a node -/
def Kind.text : Kind → Str
  | .cbd => "CBD".toList
  | .periphery => "P".toList
  | .subcenter => "SC".toList

/-- graph.py:237-239: the line of a node, without the end of line -/
def nodeLine [NumText K] (nd : Node K) : Str :=
  joinWith ' ' [showInt nd.id, nd.name, NumText.fmt nd.x, NumText.fmt nd.y, nd.kind.text, showInt nd.zone, NumText.fmt nd.width]

/-- graph.py:224-226: the first lines, each with its end of line -/
def pajekHead : Str :=
  "Content format: [node_id] [node_name] [x] [y] [node_type] [zone_id] [node_width]\n".toList ++
    "Content format: each row provides have whitespace separated values\n\n".toList

/-- graph.py:216-240 `export_graph` -/
def Graph.exportPajek [NumText K] (g : Graph K) : Str :=
  pajekHead ++ ("*vertices ".toList ++ showInt (g.nodes.length : Int) ++ ['\n']) ++
    (g.nodes.flatMap fun nd => nodeLine nd ++ ['\n'])

/-! ### the rows of a file -/

/-- a row of the data frame of graph.py:446-452; coordinates and width are still text -/
structure FileRow where
  id : Int
  name : Str
  x : Str
  y : Str
  kind : Kind
  zone : Int
  width : Str
  deriving DecidableEq, Repr

/-- graph.py:423: the three classes -/
def kindOf (s : Str) : Option Kind :=
  if s = "CBD".toList then some .cbd else if s = "SC".toList then some .subcenter else if s = "P".toList then some .periphery
  else none

/-- graph.py:416 `line.lower().startswith("*vertices")` -/
def isVertices (line : Str) : Bool := "*vertices".toList.isPrefixOf (line.map Char.toLower)

/-- graph.py:417-418: unpacking of anything but two words and `int` raise `ValueError` -/
def verticesCount (line : Str) : Py Int :=
  match splitWs line with
  | [_, w] =>
    match pyInt w with
    | some n => .ok n
    | none => .error .ValueError
  | _ => .error .ValueError

/-- graph.py:423-439: the words of a row, in the order of the checks -/
def mkRow (i name x y k z w : Str) : Py FileRow :=
  match kindOf k with
  | none => .error .NodeTypeIsNotValid
  | some k =>
    match pyInt i with
    | none => .error .NodeIdIsNotAnInteger
    | some i =>
      match pyInt z with
      | none => .error .ZoneIdIsNotAnInteger
      | some z => .ok ⟨i, name, x, y, k, z, w⟩

/-- graph.py:421-444 -/
def rowOfLine (line : Str) : Py FileRow :=
  match splitWs line with
  | [i, name, x, y, k, z, w] => mkRow i name x y k z w
  | _ => .error .PajekFormatIsNotValid

/-- graph.py:415-444: one line; the state is `n_nodes` and the rows read -/
def fileStep (s : Int × List FileRow) (line : Str) : Py (Int × List FileRow) :=
  if isVertices line then do
    let n ← verticesCount line
    return (n, s.2)
  else if s.1 > 0 then do
    let r ← rowOfLine line
    return (s.1 - 1, s.2 ++ [r])
  else .ok s

/-- graph.py:392-454 `__pajekfile_to_dataframe` -/
def pajekRows (data : Str) : Py (List FileRow) := do
  let s ← (splitOn '\n' data).foldlM fileStep (0, [])
  return s.2

/-! ### sorting -/

/-- the order of "CBD", "P", "SC" as text -/
def Kind.rank : Kind → Nat
  | .cbd => 0
  | .periphery => 1
  | .subcenter => 2

/-- the order of graph.py:531 -/
def FileRow.Before (a b : FileRow) : Prop := a.zone < b.zone ∨ (a.zone = b.zone ∧ a.kind.rank ≤ b.kind.rank)

instance : DecidableRel FileRow.Before := fun _ _ => inferInstanceAs (Decidable (_ ∨ _))

/-- graph.py:531 `sort_values(["zone", "type"])`; pandas sorts by several columns with a stable method -/
def sortRows (rows : List FileRow) : List FileRow := rows.insertionSort FileRow.Before

/-! ### the city -/

/-- `float(text)` -/
def pyFloat [NumText K] (s : Str) : Py K :=
  match NumText.parse s with
  | some v => .ok v
  | none => .error .ValueError

variable [Field K] [LinearOrder K]

/-- graph.py:568-579: what the loop over the zones collects -/
structure Found (K : Type) where
  rsc : List K
  rp : List K
  ang : List K
  etha : Option K
  ethaZone : Option Int

/-- graph.py:568-579 -/
def Found.empty : Found K := ⟨[], [], [], none, none⟩

/-- graph.py:610-613: `etha` when the CBD and the subcentre are in the same direction -/
def alignStep (rcbd acbd : K) (zone : Int) (sc : Node K) (s : Found K) : Py (Found K) :=
  if acbd - 1 / 1000 ≤ sc.angle ∧ sc.angle ≤ acbd + 1 / 1000 then do
    let e ← pyDiv rcbd sc.radius
    return { s with etha := some e, ethaZone := some zone }
  else .ok s

/-- graph.py:583-613: one zone -/
def foundStep (ps scs : List (Node K)) (rcbd acbd : K) (s : Found K) (i : Nat) : Py (Found K) :=
  match ps.filter (fun p => p.zone = (i : Int) + 1), scs.filter (fun sc => sc.zone = (i : Int) + 1) with
  | [p], [sc] => alignStep rcbd acbd ((i : Int) + 1) sc
      { s with rsc := s.rsc ++ [sc.radius], rp := s.rp ++ [p.radius], ang := s.ang ++ [sc.angle] }
  | _, _ => .error .PeripherySubcenterNumberForZone

/-- graph.py:615-619 -/
def meansOf (rsc rp : List K) : Py (K × K) :=
  if rsc.length ≠ 0 ∧ rp.length ≠ 0 then do
    let l ← pyDiv rsc.sum (rsc.length : K)
    let m ← pyDiv rp.sum (rp.length : K)
    let g ← pyDiv (m - l) l
    return (l, g)
  else .ok (0, 0)

/-- graph.py:635-646: one zone; the searches stop at the first node of the zone -/
def importStep (ps scs : List (Node K)) (g : Graph K) (i : Nat) : Py (Graph K) :=
  addZone g (ps.find? fun p => p.zone = (i : Int) + 1) (scs.find? fun sc => sc.zone = (i : Int) + 1) none

/-- graph.py:632-646 -/
def importNodes (cbds ps scs : List (Node K)) (n : Nat) : Py (Graph K) :=
  (List.range n).foldlM (importStep ps scs) (cbds.foldl addCbd Graph.empty)

/-- graph.py:571-576 -/
def onlyCbd (cbds : List (Node K)) : K × K :=
  match cbds with
  | [c] => (c.radius, c.angle)
  | _ => (0, 0)

/-- graph.py:542-661: the city with the nodes of the sorted rows; `width` is that of the last one -/
def cityFrom (ns : List (Node K)) (n : Nat) : Py (Graph K) := do
  let cbds := ns.filter fun nd => nd.kind = .cbd
  let ps := ns.filter fun nd => nd.kind = .periphery
  let scs := ns.filter fun nd => nd.kind = .subcenter
  let width := (ns.getLast?.map Node.width).getD 0
  let s ← (List.range n).foldlM (foundStep ps scs (onlyCbd cbds).1 (onlyCbd cbds).2) Found.empty
  let lg ← meansOf s.rsc s.rp
  let gi ← s.rsc.mapM fun r => pyDiv r lg.1
  let hi ← s.rp.mapM fun r => pyDiv r (lg.1 + lg.2 * lg.1)
  parametersValidator (n : Int) lg.1 lg.2 width s.etha s.ethaZone (some s.ang) (some gi) (some hi)
  let g ← importNodes cbds ps scs n
  return { g with n := some (n : Int), l := some lg.1, g := some lg.2, p := some width, etha := s.etha, ethaZone := s.ethaZone,
                  angles := some s.ang, gi := some gi, hi := some hi }

variable [PyMath K] [NumText K]

/-- graph.py:550-566: the node of a row; radius and angle are computed from the coordinates -/
def readNode (r : FileRow) : Py (Node K) := do
  let x ← (pyFloat r.x : Py K)
  let y ← pyFloat r.y
  let w ← pyFloat r.width
  let a ← getAngle x y
  mkNode r.kind r.id x y (PyMath.sqrt (x ^ 2 + y ^ 2)) a w r.zone r.name

/-- graph.py:533-538: the number of rows is odd and at most 9999 -/
def acceptedRows (k : Nat) : Prop := k % 2 = 1 ∧ k < 10001

instance (k : Nat) : Decidable (acceptedRows k) := inferInstanceAs (Decidable (_ ∧ _))

/-- graph.py:518-661 `build_from_content` (and 663-680 `build_from_file`, with the text of the file) -/
def buildFromContent (data : Str) : Py (Graph K) := do
  let rows ← pajekRows data
  let rows := sortRows rows
  raiseIf (¬ acceptedRows rows.length) .LineNumberInFileIsNotValid
  let ns ← (rows.mapM readNode : Py (List (Node K)))
  cityFrom ns ((rows.length - 1) / 2)

end Sidermit
