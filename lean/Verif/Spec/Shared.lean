import Verif.Model.Results
import Verif.Model.Demand
import Verif.Spec.Network

/-!
What the properties on changes of the inputs of an optimizer say: the calls a user can make on the objects that were given to the
constructor.

`Optimizer.__init__` keeps the objects and does not copy them (optimizer.py:48-61), and so do the costs and the constraints, which
ask the network for its routes and modes each time (optimizer.py:144-145, 159, 179, 235-237), and `last_iteration` (optimizer.py:501).
The paths, the shares and the trips of the pairs (optimizer.py:66-75) are computed once.  So a call on the network, on the demand or on
the passenger changes the fields `net`, `demand` and `pas` of the optimizer, and no other field.  The total of the trips is a number that
the constructor copies (optimizer.py:52), so the table of the whole network has it as an argument here.  Assignments to the attributes of
a mode or of a route are not included.
-/

namespace Sidermit

variable {K : Type}

/-- a call on one of the objects that were given to the constructor -/
inductive InputCall (K : Type)
  | demand (i j : Int) (v : K)
  | net (c : NetCall K)
  | passenger (a : PassengerAttr) (x : Option K)

variable [Field K] [LinearOrder K]

/-- the optimizer after a call, whether it raises or not -/
def InputCall.run (o : Optimizer K) : InputCall K → Optimizer K
  | .demand i j v => { o with demand := (o.demand.changeVij i j v).1 }
  | .net c => { o with net := (c.run o.net).1 }
  | .passenger a x => { o with pas := (o.pas.assign a x).1 }

/-- the optimizer after the calls -/
def Optimizer.later (o : Optimizer K) (calls : List (InputCall K)) : Optimizer K := calls.foldl InputCall.run o

/-- the objects that were given to the constructor -/
structure Inputs (K : Type) where
  demand : Demand K
  net : Network K
  pas : Passenger K

/-- the objects after the calls, whether these raise or not -/
def Inputs.after (w : Inputs K) : List (InputCall K) → Inputs K
  | [] => w
  | .demand i j v :: calls => Inputs.after ⟨(w.demand.changeVij i j v).1, w.net, w.pas⟩ calls
  | .net c :: calls => Inputs.after ⟨w.demand, (c.run w.net).1, w.pas⟩ calls
  | .passenger a x :: calls => Inputs.after ⟨w.demand, w.net, (w.pas.assign a x).1⟩ calls

/-- optimizer.py:746-822 `get_overall_results` of an object that has counted `trips` when it was built (optimizer.py:52, 811-818); the
other values are those of the last iteration.  `Optimizer.overall` reads the demand only for the total. -/
def Optimizer.report [PyMath K] (trips : K) (o : Optimizer K) (best : Option (Res K)) : Py (Overall K) := do
  match best with
  | none => .error .NoOptimalSolutionFound
  | some r =>
    let l ← o.lastIteration r
    { l.2.1 with demand := { l.2.1.demand with total := trips } }.overall l.1 l.2.2

/-- the values for a trip, `c` times as large; the values of the modes are the same -/
def Overall.perTrip (c : K) (w : Overall K) : Overall K :=
  { w with
    vrc := c * w.vrc
    operators := c * w.operators
    infrastructure := c * w.infrastructure
    users := c * w.users
    onBoard := c * w.onBoard
    waiting := c * w.waiting
    access := c * w.access
    transfers := c * w.transfers }

/-- the calls change the trips -/
def InputCall.OnDemand : InputCall K → Prop
  | .demand _ _ _ => True
  | _ => False

/-- the call adds a line or a mode -/
def NetCall.Adds : NetCall K → Prop
  | .addRoute _ => True
  | .addMode _ => True
  | _ => False

/-- the call assigns a value of time that only the bill of the users contains -/
def PassengerAttr.Social : PassengerAttr → Prop
  | .spv | .spw | .spa | .spt => True
  | _ => False

end Sidermit
