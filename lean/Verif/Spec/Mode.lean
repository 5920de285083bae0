import Verif.Model.Mode

/-!
Specification of transport modes, of the mode manager and of passengers.
-/

namespace Sidermit

variable {K : Type} [Field K] [LinearOrder K]

/-- the documented ranges of the attributes of a mode (docstrings and messages of mode.py:29-73) -/
def Mode.InRange (m : Mode K) : Prop :=
  0 ≤ m.co ∧ 0 ≤ m.c1 ∧ 0 ≤ m.c2 ∧ 0 < m.v ∧ 0 ≤ m.t ∧ 0 ≤ m.fmax ∧ 0 ≤ m.kmax ∧
  (0 ≤ m.theta ∧ m.theta ≤ 1) ∧ 0 ≤ m.tat ∧ 0 ≤ m.d ∧ 0 ≤ m.fini ∧ (m.bya = 0 ∨ m.bya = 1)

/-- the mode objects a user can have in hands: built by the constructor, then changed by any assignments, whether
they raise or not -/
inductive Mode.Reachable : Mode K → Prop
  | new {oid : Nat} {a : ModeArgs K} {m : Mode K} (h : Mode.new oid a = .ok m) : Mode.Reachable m
  | assign {m : Mode K} (h : Mode.Reachable m) (a : ModeAssign K) : Mode.Reachable (m.assign a).1

/-- what a user reads from a mode -/
inductive ModeAttr
  | name | bya | co | c1 | c2 | v | t | fmax | kmax | theta | tat | d | fini
  deriving DecidableEq, Repr

/-- values that can be read -/
inductive AttrVal (K : Type)
  | text (s : Str)
  | int (i : Int)
  | num (x : K)
  deriving DecidableEq, Repr

/-- `mode.attribute` -/
def Mode.read (m : Mode K) : ModeAttr → AttrVal K
  | .name => .text m.name
  | .bya => .int m.bya
  | .co => .num m.co
  | .c1 => .num m.c1
  | .c2 => .num m.c2
  | .v => .num m.v
  | .t => .num m.t
  | .fmax => .num m.fmax
  | .kmax => .num m.kmax
  | .theta => .num m.theta
  | .tat => .num m.tat
  | .d => .int m.d
  | .fini => .num m.fini

/-- the attribute that an assignment names -/
def ModeAssign.target : ModeAssign K → ModeAttr
  | .name _ => .name | .bya _ => .bya | .co _ => .co | .c1 _ => .c1 | .c2 _ => .c2 | .v _ => .v | .t _ => .t
  | .fmax _ => .fmax | .kmax _ => .kmax | .theta _ => .theta | .tat _ => .tat | .d _ => .d | .fini _ => .fini

/-- the value given in an assignment (`none` is Python's `None`) -/
def ModeAssign.value : ModeAssign K → Option (AttrVal K)
  | .name x => x.map .text
  | .bya x => x.map .int
  | .d x => x.map .int
  | .co x => x.map .num
  | .c1 x => x.map .num
  | .c2 x => x.map .num
  | .v x => x.map .num
  | .t x => x.map .num
  | .fmax x => x.map .num
  | .kmax x => x.map .num
  | .theta x => x.map .num
  | .tat x => x.map .num
  | .fini x => x.map .num

/-- the documented domain of each attribute -/
def AttrOk : ModeAttr → AttrVal K → Prop
  | .name, .text _ => True
  | .bya, .int i => i = 0 ∨ i = 1
  | .d, .int i => 0 ≤ i
  | .v, .num x => 0 < x
  | .theta, .num x => 0 ≤ x ∧ x ≤ 1
  | .co, .num x => 0 ≤ x
  | .c1, .num x => 0 ≤ x
  | .c2, .num x => 0 ≤ x
  | .t, .num x => 0 ≤ x
  | .fmax, .num x => 0 ≤ x
  | .kmax, .num x => 0 ≤ x
  | .tat, .num x => 0 ≤ x
  | .fini, .num x => 0 ≤ x
  | _, _ => False

/-- the exception of each setter -/
def ModeAttr.exc : ModeAttr → PyErr
  | .name => .NameIsNotValid | .bya => .ByaIsNotValid | .co => .CoIsNotValid | .c1 => .C1IsNotValid
  | .c2 => .C2IsNotValid | .v => .VIsNotValid | .t => .TIsNotValid | .fmax => .FmaxIsNotValid
  | .kmax => .KmaxIsNotValid | .theta => .ThetaIsNotValid | .tat => .TatIsNotValid | .d => .DIsNotValid
  | .fini => .FiniIsNotValid

/-- the arguments the constructor of a mode is documented to accept, and the attributes of the new object: the maximum
and the initial frequency given are those of one of the `d` parallel lines -/
def ModeArgs.Gives (a : ModeArgs K) (m : Mode K) : Prop :=
  a.name = some m.name ∧ a.bya = some m.bya ∧ a.co = some m.co ∧ a.c1 = some m.c1 ∧ a.c2 = some m.c2 ∧
  a.v = some m.v ∧ a.t = some m.t ∧ a.kmax = some m.kmax ∧ a.theta = some m.theta ∧ a.tat = some m.tat ∧
  a.d = some m.d ∧ (∃ x, a.fmax = some x ∧ m.fmax = x * (m.d : K)) ∧ (∃ x, a.fini = some x ∧ m.fini = x * (m.d : K))

/-- a call on a mode manager; `assign` is an assignment to an attribute of some mode object (which the manager may hold) -/
inductive ManagerCall (K : Type)
  | add (m : Mode K)
  | remove (name : Str)
  | assign (oid : Nat) (a : ModeAssign K)

def ManagerCall.run (s : ModeManager K) : ManagerCall K → ModeManager K
  | .add m => (s.addMode m).1
  | .remove name => (s.removeMode name).1
  | .assign oid a => s.assignMode oid a

/-- the managers a user can have in hands -/
inductive ModeManager.Reachable : ModeManager K → Prop
  | init {oid : Nat} {b : Bool} {s : ModeManager K} (h : ModeManager.init oid b = .ok s) : ModeManager.Reachable s
  | call {s : ModeManager K} (h : ModeManager.Reachable s) (c : ManagerCall K) : ModeManager.Reachable (c.run s)

/-- `passenger.attribute` -/
def Passenger.read (p : Passenger K) : PassengerAttr → K
  | .va => p.va | .pv => p.pv | .pw => p.pw | .pa => p.pa | .pt => p.pt
  | .spv => p.spv | .spw => p.spw | .spa => p.spa | .spt => p.spt

/-- the exception of each setter of a passenger -/
def PassengerAttr.exc : PassengerAttr → PyErr
  | .va => .VaIsNotValid | .pv => .PvIsNotValid | .pw => .PwIsNotValid | .pa => .PaIsNotValid
  | .pt => .PtIsNotValid | .spv => .SpvIsNotValid | .spw => .SpwIsNotValid | .spa => .SpaIsNotValid
  | .spt => .SptIsNotValid

/-- the documented domain: a positive walking speed, everything else non-negative -/
def PassengerOk (attr : PassengerAttr) (x : K) : Prop := if attr = .va then 0 < x else 0 ≤ x

inductive Passenger.Reachable : Passenger K → Prop
  | new {va pv pw pa pt spv spw spa spt : Option K} {p : Passenger K}
      (h : Passenger.new va pv pw pa pt spv spw spa spt = .ok p) : Passenger.Reachable p
  | assign {p : Passenger K} (h : Passenger.Reachable p) (attr : PassengerAttr) (x : Option K) :
      Passenger.Reachable (p.assign attr x).1

end Sidermit
