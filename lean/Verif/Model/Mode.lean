import Verif.Base

/-!
Model of `sidermit/publictransportsystem/mode.py` and `sidermit/publictransportsystem/passenger.py`.

A Python value that may be `None` is an `Option`.  Values of a wrong type (text for a number, a non-mode object) are
ruled out by the types.  `d` is an integer, as its annotation says.
-/

namespace Sidermit

variable {K : Type}

/-- mode.py:29-90: a `TransportMode` object.  `oid` is the identity of the object (`TransportMode` defines no `__eq__`,
so `==` and `in` compare identities). -/
structure Mode (K : Type) where
  oid : Nat
  name : Str
  bya : Int
  co : K
  c1 : K
  c2 : K
  v : K
  t : K
  fmax : K
  kmax : K
  theta : K
  tat : K
  d : Int
  fini : K
  deriving DecidableEq, Repr

/-- an assignment `mode.attribute = value` -/
inductive ModeAssign (K : Type)
  | name (value : Option Str)
  | bya (value : Option Int)
  | co (value : Option K)
  | c1 (value : Option K)
  | c2 (value : Option K)
  | v (value : Option K)
  | t (value : Option K)
  | fmax (value : Option K)
  | kmax (value : Option K)
  | theta (value : Option K)
  | tat (value : Option K)
  | d (value : Option Int)
  | fini (value : Option K)

section Setters

variable [Field K] [LinearOrder K]

/-- mode.py:21-24 and passenger.py:16-19, the setter made with `operator.lt`: the value to store, or the exception -/
def checkNonneg {R : Type} [Zero R] [LT R] [DecidableLT R] (value : Option R) (e : PyErr) : Py R :=
  match value with
  | none => .error e
  | some x => if x < 0 then .error e else .ok x

/-- mode.py:21-24 and passenger.py:16-19, the setter made with `operator.le` -/
def checkPos (value : Option K) (e : PyErr) : Py K :=
  match value with
  | none => .error e
  | some x => if x ≤ 0 then .error e else .ok x

/-- mode.py:55-59 -/
def checkName (value : Option Str) : Py Str :=
  match value with
  | none => .error .NameIsNotValid
  | some s => .ok s

/-- mode.py:61-66 -/
def checkBya (value : Option Int) : Py Int :=
  match value with
  | none => .error .ByaIsNotValid
  | some x => if x ∉ [0, 1] then .error .ByaIsNotValid else .ok x

/-- mode.py:68-73 -/
def checkTheta (value : Option K) : Py K :=
  match value with
  | none => .error .ThetaIsNotValid
  | some x => if x < 0 ∨ x > 1 then .error .ThetaIsNotValid else .ok x

/-- storing a checked value: the object after the assignment and the exception, if one was raised -/
def store {α R : Type} (obj : α) (checked : Py R) (put : R → α) : α × Option PyErr :=
  match checked with
  | .ok x => (put x, none)
  | .error e => (obj, some e)

/-- mode.py:29-73: the setters of `TransportMode` -/
def Mode.assign (m : Mode K) : ModeAssign K → Mode K × Option PyErr
  | .name x => store m (checkName x) fun x => { m with name := x }
  | .bya x => store m (checkBya x) fun x => { m with bya := x }
  | .co x => store m (checkNonneg x .CoIsNotValid) fun x => { m with co := x }
  | .c1 x => store m (checkNonneg x .C1IsNotValid) fun x => { m with c1 := x }
  | .c2 x => store m (checkNonneg x .C2IsNotValid) fun x => { m with c2 := x }
  | .v x => store m (checkPos x .VIsNotValid) fun x => { m with v := x }
  | .t x => store m (checkNonneg x .TIsNotValid) fun x => { m with t := x }
  | .fmax x => store m (checkNonneg x .FmaxIsNotValid) fun x => { m with fmax := x }
  | .kmax x => store m (checkNonneg x .KmaxIsNotValid) fun x => { m with kmax := x }
  | .theta x => store m (checkTheta x) fun x => { m with theta := x }
  | .tat x => store m (checkNonneg x .TatIsNotValid) fun x => { m with tat := x }
  | .d x => store m (checkNonneg x .DIsNotValid) fun x => { m with d := x }
  | .fini x => store m (checkNonneg x .FiniIsNotValid) fun x => { m with fini := x }

/-- the product `x * d` of the constructor: a `None` factor is a `TypeError` -/
def timesD (x : Option K) (d : Option Int) : Py K :=
  match x, d with
  | some x, some d => .ok (x * (d : K))
  | _, _ => .error .TypeError

/-- the arguments of the constructor of `TransportMode` -/
structure ModeArgs (K : Type) where
  name : Option Str
  bya : Option Int
  co : Option K
  c1 : Option K
  c2 : Option K
  v : Option K
  t : Option K
  fmax : Option K
  kmax : Option K
  theta : Option K
  tat : Option K
  d : Option Int
  fini : Option K

/-- mode.py:75-90 `TransportMode.__init__`; `oid` is the identity of the new object -/
def Mode.new (oid : Nat) (a : ModeArgs K) : Py (Mode K) := do
  let name ← checkName a.name
  let bya ← checkBya a.bya
  let co ← checkNonneg a.co .CoIsNotValid
  let c1 ← checkNonneg a.c1 .C1IsNotValid
  let c2 ← checkNonneg a.c2 .C2IsNotValid
  let v ← checkPos a.v .VIsNotValid
  let t ← checkNonneg a.t .TIsNotValid
  let fmaxD ← timesD a.fmax a.d
  let fmax ← checkNonneg (some fmaxD) .FmaxIsNotValid
  let kmax ← checkNonneg a.kmax .KmaxIsNotValid
  let theta ← checkTheta a.theta
  let tat ← checkNonneg a.tat .TatIsNotValid
  let d ← checkNonneg a.d .DIsNotValid
  let finiD ← timesD a.fini a.d
  let fini ← checkNonneg (some finiD) .FiniIsNotValid
  return { oid, name, bya, co, c1, c2, v, t, fmax, kmax, theta, tat, d, fini }

/-- mode.py:98-99: the arguments of the default bus -/
def busArgs : ModeArgs K :=
  { name := some "bus".toList, bya := some 1, co := some (861 / 100), c1 := some (15 / 100), c2 := some 0,
    v := some 20, t := some (25 / 10), fmax := some 150, kmax := some 160, theta := some (7 / 10), tat := some 0,
    d := some 4, fini := some 28 }

/-- mode.py:100-101: the arguments of the default metro -/
def metroArgs : ModeArgs K :=
  { name := some "metro".toList, bya := some 0, co := some (8091 / 100), c1 := some (3 / 10), c2 := some (93315 / 100),
    v := some 40, t := some (33 / 100), fmax := some 40, kmax := some 1440, theta := some (5 / 10), tat := some 1,
    d := some 1, fini := some 28 }

/-- mode.py:92-103 `get_default_modes`; the two new objects get the identities `oid` and `oid + 1` -/
def defaultModes (oid : Nat) : Py (List (Mode K)) := do
  let bus ← Mode.new oid busArgs
  let metro ← Mode.new (oid + 1) metroArgs
  return [bus, metro]

end Setters

/-! ### TransportModeManager -/

/-- mode.py:106-121: the attributes of a `TransportModeManager` -/
structure ModeManager (K : Type) where
  names : List Str
  modes : List (Mode K)
  deriving DecidableEq, Repr

namespace ModeManager

/-- mode.py:107-121 `__init__`; `oid` is the identity of the first default mode object created -/
def init [Field K] [LinearOrder K] (oid : Nat) (addDefault : Bool) : Py (ModeManager K) :=
  if addDefault then do
    let l ← defaultModes oid
    return { names := l.map (·.name), modes := l }
  else return { names := [], modes := [] }

/-- mode.py:123-140 `is_valid_to_assignment_step` -/
def isValidToAssignmentStep (s : ModeManager K) : Py Bool :=
  if s.modes.length = 1 then .ok true
  else if s.modes.length = 2 then
    if s.modes.any (fun m => m.d == 1) then .ok true else .error .TransportNetwork
  else .error .TransportNetwork

/-- mode.py:142-153 `get_mode` -/
def getMode (s : ModeManager K) (name : Str) : Py (Mode K) :=
  if name ∉ s.names then .error .ModeNotFound
  else match s.modes[s.names.idxOf name]? with
    | some m => .ok m
    | none => .error .IndexError

/-- mode.py:169-182 `add_mode` -/
def addMode (s : ModeManager K) (m : Mode K) : ModeManager K × Option PyErr :=
  if m.name ∈ s.names then (s, some .AddMode)
  else ({ modes := s.modes ++ [m], names := s.names ++ [m.name] }, none)

/-- mode.py:184-196 `remove_mode`.  `pop(i)` of the second list would raise on an index out of range, after the first list
has been changed. -/
def removeMode (s : ModeManager K) (name : Str) : ModeManager K × Option PyErr :=
  if name ∈ s.names then
    let i := s.names.idxOf name
    if i < s.modes.length then ({ names := s.names.eraseIdx i, modes := s.modes.eraseIdx i }, none)
    else ({ s with names := s.names.eraseIdx i }, some .IndexError)
  else (s, some .ModeDoesNotExist)

/-- an assignment to an attribute of the mode object `oid`, seen through the manager that holds it -/
def assignMode [Field K] [LinearOrder K] (s : ModeManager K) (oid : Nat) (a : ModeAssign K) : ModeManager K :=
  { s with modes := s.modes.map fun m => if m.oid = oid then (m.assign a).1 else m }

end ModeManager

/-! ### Passenger -/

/-- passenger.py:24-54: a `Passenger` object -/
structure Passenger (K : Type) where
  va : K
  pv : K
  pw : K
  pa : K
  pt : K
  spv : K
  spw : K
  spa : K
  spt : K
  deriving DecidableEq, Repr

/-- the attributes of a passenger -/
inductive PassengerAttr
  | va | pv | pw | pa | pt | spv | spw | spa | spt
  deriving DecidableEq, Repr

section

variable [Field K] [LinearOrder K]

/-- passenger.py:25-42: an assignment `passenger.attribute = value` -/
def Passenger.assign (p : Passenger K) (attr : PassengerAttr) (x : Option K) : Passenger K × Option PyErr :=
  match attr with
  | .va => store p (checkPos x .VaIsNotValid) fun x => { p with va := x }
  | .pv => store p (checkNonneg x .PvIsNotValid) fun x => { p with pv := x }
  | .pw => store p (checkNonneg x .PwIsNotValid) fun x => { p with pw := x }
  | .pa => store p (checkNonneg x .PaIsNotValid) fun x => { p with pa := x }
  | .pt => store p (checkNonneg x .PtIsNotValid) fun x => { p with pt := x }
  | .spv => store p (checkNonneg x .SpvIsNotValid) fun x => { p with spv := x }
  | .spw => store p (checkNonneg x .SpwIsNotValid) fun x => { p with spw := x }
  | .spa => store p (checkNonneg x .SpaIsNotValid) fun x => { p with spa := x }
  | .spt => store p (checkNonneg x .SptIsNotValid) fun x => { p with spt := x }

/-- passenger.py:44-54 `Passenger.__init__` -/
def Passenger.new (va pv pw pa pt spv spw spa spt : Option K) : Py (Passenger K) := do
  let va ← checkPos va .VaIsNotValid
  let pv ← checkNonneg pv .PvIsNotValid
  let pw ← checkNonneg pw .PwIsNotValid
  let pa ← checkNonneg pa .PaIsNotValid
  let pt ← checkNonneg pt .PtIsNotValid
  let spv ← checkNonneg spv .SpvIsNotValid
  let spw ← checkNonneg spw .SpwIsNotValid
  let spa ← checkNonneg spa .SpaIsNotValid
  let spt ← checkNonneg spt .SptIsNotValid
  return { va, pv, pw, pa, pt, spv, spw, spa, spt }

/-- passenger.py:56-62 `get_default_passenger` -/
def Passenger.default : Py (Passenger K) :=
  Passenger.new (some 4) (some (274 / 100)) (some (548 / 100)) (some (822 / 100)) (some 16)
    (some (274 / 100)) (some (548 / 100)) (some (822 / 100)) (some 16)

end

end Sidermit
