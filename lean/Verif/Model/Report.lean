import Verif.Model.Results
import Mathlib.Algebra.Order.Floor.Defs
import Mathlib.Algebra.Order.Floor.Ring

/-!
Model of the text reports: `string_network_results`, `write_file_network_results`, `string_overall_results` and
`string_network_optimization` of `sidermit/optimization/optimizer.py`.

`{:.2f}` prints the decimal nearest to the number, the even one of two (this is what Python does with the exact value of a
double).  `{}` of a number is `NumText.fmt`.  The sign of a negative zero is not modelled.
-/

namespace Sidermit

variable {K : Type}

/-! ### numbers and lists -/

section Numbers

variable [Field K] [LinearOrder K] [FloorRing K]

/-- the nearest integer, of two the even one -/
def nearest (x : K) : Int :=
  if x - (⌊x⌋ : K) < 1 / 2 then ⌊x⌋
  else if 1 / 2 < x - (⌊x⌋ : K) then ⌊x⌋ + 1
  else if ⌊x⌋ % 2 = 0 then ⌊x⌋ else ⌊x⌋ + 1

/-- the last `p` decimal digits of a number -/
def lastDigits : Nat → Nat → Str
  | 0, _ => []
  | p + 1, n => lastDigits p (n / 10) ++ [digitChar (n % 10)]

/-- `"{:.pf}".format(x)` for `p > 0` -/
def fixed (p : Nat) (x : K) : Str :=
  let n := (nearest (10 ^ p * |x|)).toNat
  (if x < 0 then ['-'] else []) ++ (showNat (n / 10 ^ p) ++ '.' :: lastDigits p n)

/-- the same for a number that may be `float("inf")` -/
def fixedTop (p : Nat) (x : WithTop K) : Str :=
  match x with
  | none => "inf".toList
  | some y => fixed p y

end Numbers

/-- `", ".join(parts)` -/
def commaJoin : List Str → Str
  | [] => []
  | [w] => w
  | w :: ws => w ++ ',' :: ' ' :: commaJoin ws

/-- `str((i, j, x))` -/
def tupleText (num : K → Str) (s : Int × Int × K) : Str :=
  '(' :: (commaJoin [showInt s.1, showInt s.2.1, num s.2.2] ++ [')'])

/-- `str(table)` of a list of such tuples -/
def tableText (num : K → Str) (l : List (Int × Int × K)) : Str :=
  '[' :: (commaJoin (l.map (tupleText num)) ++ [']'])

/-! ### the table of lines -/

section Rows

variable [Field K] [LinearOrder K] [FloorRing K] [NumText K]

/-- the charges of a table: numbers (`float`), but the integer 0 for a line that does not run (optimizer.py:688-711) -/
def chargeText (r : Row K) (x : K) : Str := if r.f > 0 then NumText.fmt x else showInt 0

/-- optimizer.py:729-732: the fields of a line, separated by semicolons -/
def rowText (r : Row K) : Str :=
  joinWith ';' [r.id, fixed 2 r.f, fixed 2 r.perLine, fixed 2 r.k, fixed 2 r.fleet, fixed 2 r.minutes, fixed 2 r.co,
    fixedTop 2 r.leastLoad, tableText (chargeText r) r.tableI, tableText (chargeText r) r.tableR]

/-- optimizer.py:726 -/
def rowsHeader : Str :=
  "route_id;F[veh/hr];f[veh/hr-line];k[pax/veh];B[veh];tc[min];CO[US$/hr-pax];load_min;sub_table_i;sub_table_r".toList

/-- optimizer.py:726-733 -/
def rowsText (rows : List (Row K)) : Str := rowsHeader ++ rows.flatMap fun r => '\n' :: rowText r

variable [PyMath K]

/-- optimizer.py:719-733 `string_network_results`, and the content of the file of optimizer.py:735-744
`write_file_network_results` -/
def Optimizer.stringNetworkResults (o : Optimizer K) (best : Option (Res K)) : Py Str := do
  let rows ← o.networkResults best
  return rowsText rows

/-! ### the overall results -/

omit [NumText K] [PyMath K] in
/-- optimizer.py:873-877: one mode of the dictionary of vehicles -/
def modeText (v : Overall K) (p : Mode K × K) : Str :=
  "\n\n\tMode name: ".toList ++ p.1.name ++ "\n\tB [veh]      : ".toList ++ fixed 2 p.2 ++
    "\n\tK [pax/veh]  : ".toList ++ fixed 2 (v.sizes.getD p.1 0) ++ "\n\tL [lines]    : ".toList ++ showInt (v.lines.getD p.1 0)

omit [NumText K] [PyMath K] in
/-- optimizer.py:856-870: the labels and numbers -/
def overallLines (v : Overall K) : List (Str × K) :=
  [("\n\nObjective function VRC [USD$/hr-pax]: ".toList, v.vrc),
    ("\nOperators cost [USD$/hr-pax]        : ".toList, v.operators),
    ("\nInfrastructure cost [USD$/hr-pax]   : ".toList, v.infrastructure),
    ("\nUsers cost [USD$/hr-pax]            : ".toList, v.users),
    ("\n\nResources consumer for users\nTime on board vehicle [min/pax]: ".toList, v.onBoard),
    ("\nWaiting time [min/pax]         : ".toList, v.waiting),
    ("\nAccess time [min/pax]          : ".toList, v.access),
    ("\ntotal travel time [min/pax]    : ".toList, v.onBoard + v.access + v.waiting),
    ("\nTransfers [transfers/pax]      : ".toList, v.transfers)]

omit [NumText K] [PyMath K] in
/-- optimizer.py:843-878 -/
def overallText (v : Overall K) : Str :=
  (overallLines v).flatMap (fun p => p.1 ++ fixed 2 p.2) ++
    ("\n\nTransport mode information: ".toList ++ showInt v.fleet.length ++ v.fleet.flatMap (modeText v))

omit [NumText K] in
/-- optimizer.py:824-878 `string_overall_results` -/
def Optimizer.stringOverallResults (o : Optimizer K) (best : Option (Res K)) : Py Str := do
  let v ← o.overallResults best
  return overallText v

/-! ### the result of the optimization -/

/-- `str(success)`: `True`, `False` or `None` -/
def flagText : Option Bool → Str
  | some true => "True".toList
  | some false => "False".toList
  | none => "None".toList

/-- `str(x)` of a number that may be infinite -/
def numTopText (x : WithTop K) : Str :=
  match x with
  | none => "inf".toList
  | some y => NumText.fmt y

/-- optimizer.py:480-490 -/
def resultText (f : Dict Str K) (r : Res K) : Str :=
  "\n\nOptimization Results\nSuccess: ".toList ++ flagText r.success ++ "\nStatus: ".toList ++ showInt r.status ++
    "\nMessage: ".toList ++ r.message ++ "\nMax constrain violation: ".toList ++ NumText.fmt r.viol ++
    "\nVRC: ".toList ++ numTopText r.fn ++ "\n\nFrequency information [veh/hr]: ".toList ++
    f.flatMap fun p => "\n\t".toList ++ p.1 ++ ": ".toList ++ fixed 2 p.2

omit [PyMath K] in
/-- optimizer.py:470-490 `string_network_optimization` -/
def Optimizer.stringNetworkOptimization (o : Optimizer K) (r : Res K) : Py Str := do
  let f ← foptToF o.lines r.x
  return resultText f r

end Rows

end Sidermit
