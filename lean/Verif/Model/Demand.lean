import Verif.Model.Graph

/-!
Model of `sidermit/city/demand.py`.

The matrix is a dictionary of dictionaries (insertion order kept).  The `isinstance(., int/float)` checks of the
parameter validator are ruled out by the types.
-/

namespace Sidermit

variable {K : Type}

/-- demand.py:15-31: the attributes of a `Demand` object -/
structure Demand (K : Type) where
  graph : Graph K
  matrix : Dict Int (Dict Int K)
  total : K
  deriving DecidableEq, Repr

variable [Field K] [LinearOrder K]

/-- demand.py:63-70 `__build_default_matrix` -/
def defaultMatrix (nodes : List (Node K)) : Dict Int (Dict Int K) :=
  nodes.foldl (fun m o => nodes.foldl (fun m d => setCell m o.id d.id 0) m) []

/-- demand.py:15-31 `Demand.__init__` -/
def Demand.init (g : Graph K) : Demand K := { graph := g, matrix := defaultMatrix g.nodes, total := 0 }

/-- demand.py:72-91 `change_vij`: the object after the call, and the exception if one was raised.
`if self.__matrix.get(o)` is false when the row is missing or empty. -/
def Demand.changeVij (d : Demand K) (o e : Int) (v : K) : Demand K × Option PyErr :=
  if v < 0 then (d, some .TripsValueIsNotValid)
  else match d.matrix.get? o with
    | none => (d, some .OriginIdDoesNotFound)
    | some [] => (d, some .OriginIdDoesNotFound)
    | some (c :: row) =>
      match Dict.get? (c :: row) e with
      | none => (d, some .DestinationIdDoesNotFound)
      | some old =>
        let d := { d with total := d.total - old + v }
        ({ d with matrix := setCell d.matrix o e v }, none)

/-- demand.py:93-98 `get_matrix` hands out the `defaultdict` itself: reading a missing cell of it inserts a zero cell
(and row). -/
def Demand.readCell (d : Demand K) (o e : Int) : Demand K × K :=
  match lookup2 d.matrix o e with
  | some v => (d, v)
  | none => ({ d with matrix := setCell d.matrix o e 0 }, 0)

/-- a call of `change_vij` inside a constructor, where an exception ends the construction -/
def Demand.change (d : Demand K) (o e : Int) (v : K) : Py (Demand K) :=
  match d.changeVij o e v with
  | (d', none) => .ok d'
  | (_, some err) => .error err

/-- demand.py:100-129 `parameters_validator` -/
def demandValidator (y a alpha beta : K) : Py Unit := do
  raiseIf (y < 0) .YOutOfRange
  raiseIf (a > 1 ∨ a < 0) .AOutOfRange
  raiseIf (alpha > 1 ∨ alpha < 0) .AlphaOutOfRange
  raiseIf (beta ≥ 1 ∨ beta < 0) .BetaOutOfRange
  raiseIf (alpha + beta > 1) .AlphaBetaOutOfRange

/-- the five trip values computed in demand.py:147-181 -/
structure TripValues (K : Type) where
  pCbd : K
  pSc : K
  pOsc : K
  scCbd : K
  scOsc : K

/-- demand.py:147-181.  The divisions by `1 - beta` (beta < 1 validated), `n` (guarded) and `n - 1` (guarded) never
raise. -/
def tripValues (n : Int) (y a alpha beta0 : K) : TripValues K :=
  let b := 1 - a
  let beta := if n > 1 then beta0 else 1 - alpha
  let gamma := if n > 1 then 1 - alpha - beta0 else 0
  let alphaG := if n > 1 then alpha / (1 - beta0) else 1
  let gammaG := if n > 1 then gamma / (1 - beta0) else 0
  let yz := if n ≠ 0 then y / (n : K) else y
  let yp := a * yz
  let ysc := b * yz
  { pCbd := alpha * yp
    pSc := beta * yp
    pOsc := if n > 1 then gamma * yp / ((n : K) - 1) else 0
    scCbd := ysc * alphaG
    scOsc := if n > 1 then ysc * gammaG / ((n : K) - 1) else 0 }

omit [Field K] [LinearOrder K] in
/-- demand.py:187-193: the last node of the list with the given id -/
def findNode (nodes : List (Node K)) (i : Int) : Option (Node K) :=
  nodes.foldl (fun acc nd => if nd.id = i then some nd else acc) none

/-- `if c: demand_obj.change_vij(o, e, v)` -/
def Demand.changeIf (d : Demand K) (c : Prop) [Decidable c] (o e : Int) (v : K) : Py (Demand K) :=
  if c then d.change o e v else .ok d

/-- demand.py:187-218: body of the double loop of `build_from_parameters` -/
def demandStep (t : TripValues K) (d : Demand K) (oe : Int × Int) : Py (Demand K) :=
  let on := findNode d.graph.nodes oe.1
  let dn := findNode d.graph.nodes oe.2
  let ok := on.map Node.kind
  let dk := dn.map Node.kind
  let oz := on.map Node.zone
  let dz := dn.map Node.zone
  if ok = some .cbd then .ok d
  else if dk = some .periphery then .ok d
  else do
    let d ← d.changeIf (ok = some .periphery ∧ dk = some .cbd) oe.1 oe.2 t.pCbd
    let d ← d.changeIf (ok = some .periphery ∧ dk = some .subcenter ∧ oz = dz) oe.1 oe.2 t.pSc
    let d ← d.changeIf (ok = some .periphery ∧ dk = some .subcenter ∧ oz ≠ dz) oe.1 oe.2 t.pOsc
    let d ← d.changeIf (ok = some .subcenter ∧ dk = some .cbd) oe.1 oe.2 t.scCbd
    d.changeIf (ok = some .subcenter ∧ dk = some .subcenter ∧ oz ≠ dz) oe.1 oe.2 t.scOsc

omit [Field K] [LinearOrder K] in
/-- the keys `(origin, destination)` in iteration order -/
def matrixKeys (m : Dict Int (Dict Int K)) : List (Int × Int) :=
  m.flatMap fun r => r.2.map fun c => (r.1, c.1)

/-- demand.py:131-220 `build_from_parameters`; comparing `None > 1` (a graph object that is not a city) is a
`TypeError`. -/
def Demand.buildFromParameters (g : Graph K) (y a alpha beta : K) : Py (Demand K) := do
  demandValidator y a alpha beta
  match g.n with
  | none => throw .TypeError
  | some n =>
    (matrixKeys (Demand.init g).matrix).foldlM (demandStep (tripValues n y a alpha beta)) (Demand.init g)

/-- demand.py:271-278: one row of `build_from_content` -/
def contentCell (nodes : List (Node K)) (oid : Int) (row : List K) (d : Demand K) (j : Nat) : Py (Demand K) := do
  let dn ← pyGet nodes j
  let v ← pyGet row j
  raiseIf (v < 0) .VijIsNotValid
  d.change oid dn.id v

/-- demand.py:268-278 -/
def contentRow (nodes : List (Node K)) (mx : List (List K)) (d : Demand K) (i : Nat) : Py (Demand K) := do
  let row ← pyGet mx i
  raiseIf (nodes.length ≠ row.length) .DemandMatrixIsNotValid
  let on ← pyGet nodes i
  (List.range row.length).foldlM (contentCell nodes on.id row) d

/-- demand.py:253-280 `build_from_content` -/
def Demand.buildFromContent (g : Graph K) (mx : List (List K)) : Py (Demand K) := do
  raiseIf (g.nodes.length ≠ mx.length) .DemandMatrixIsNotValid
  (List.range mx.length).foldlM (contentRow g.nodes mx) (Demand.init g)

variable [NumText K]

omit [Field K] [LinearOrder K] in
/-- one line of the CSV file written by `DataFrame.to_csv(sep=",", index=False)` -/
def csvLine (o e : Int) (v : K) : Str := showInt o ++ ',' :: (showInt e ++ ',' :: NumText.fmt v)

omit [Field K] [LinearOrder K] in
/-- demand.py:40-61 `matrix_to_file`: header and one line per cell, each ended by a newline.  The text of the numbers is
`NumText.fmt` (pandas prints the shortest text that reads back as the same double). -/
def Demand.toCsv (d : Demand K) : Str :=
  "origin,destination,vij\n".toList ++
    (d.matrix.flatMap fun r => r.2.map fun c => (r.1, c.1, c.2)).flatMap fun c => csvLine c.1 c.2.1 c.2.2 ++ ['\n']

/-- `readlines()`, without the trailing newline of each line (`int` and `float` ignore it) -/
def readLines (s : Str) : List Str :=
  let ls := splitOn '\n' s
  if ls.getLast? = some [] then ls.dropLast else ls

/-- demand.py:242-250: one line of the file -/
def csvStep (d : Demand K) (line : Str) : Py (Demand K) :=
  match splitOn ',' line with
  | [a, b, c] =>
    match pyInt a, pyInt b, NumText.parse (strip c) with
    | some o, some e, some v => d.change o e v
    | _, _, _ => .error .NodeIdDemandIsNotAnInteger
  | _ => .error .FileFormatIsNotValid

/-- demand.py:222-251 `build_from_file`, on the content of the file -/
def Demand.buildFromFile (g : Graph K) (content : Str) : Py (Demand K) :=
  ((readLines content).drop 1).foldlM csvStep (Demand.init g)

end Sidermit
