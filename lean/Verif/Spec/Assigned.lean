import Verif.Spec.Network
import Verif.Spec.Mode

/-!
What the properties on assignments to modes say: a mode is an object that all its lines share, and its attributes can be assigned at any
time, also after lines of the mode were added to a network.

`Route` and `TransportNetwork` keep the mode object itself (network.py:59, 71, 264), and two mode objects are equal only if they are the
same object, since `TransportMode` defines no `__eq__`.  The values that the mode objects have are a table here, by the identity of the object; an assignment changes one entry of
the table and, at the same time, what the routes and the list of modes of the network show.
-/

namespace Sidermit

variable {K : Type}

/-- the network with the modes changed by a function -/
def Network.mapModes (φ : Mode K → Mode K) (s : Network K) : Network K :=
  { s with routes := s.routes.map fun r => { r with mode := φ r.mode }, modes := s.modes.map φ }

/-- the mode objects, by identity, and a network -/
structure Fleet (K : Type) where
  objects : Nat → Mode K
  net : Network K

/-- a call on the network, or an assignment to the mode object `oid` -/
inductive FleetStep (K : Type)
  | call (c : NetCall K)
  | assign (oid : Nat) (a : ModeAssign K)

/-- the modes that a call gets are objects with their present values -/
def NetCall.Of (objects : Nat → Mode K) : NetCall K → Prop
  | .addRoute r => r.mode = objects r.mode.oid
  | .removeRoute _ => True
  | .addMode m => m = objects m.oid
  | .removeMode m => m = objects m.oid

variable [Field K] [LinearOrder K]

/-- mode.py:29-73: the object after an assignment; other objects are as before -/
def assigned (oid : Nat) (a : ModeAssign K) (m : Mode K) : Mode K := if m.oid = oid then (m.assign a).1 else m

/-- the objects and the network after a step, and the exception, if any -/
def FleetStep.run (s : Fleet K) : FleetStep K → Fleet K × Option PyErr
  | .call c => (⟨s.objects, (c.run s.net).1⟩, (c.run s.net).2)
  | .assign oid a => (⟨fun i => assigned oid a (s.objects i), s.net.mapModes (assigned oid a)⟩, ((s.objects oid).assign a).2)

/-- an assignment of the name or of the number of parallel lines -/
def FleetStep.Checked : FleetStep K → Prop
  | .assign _ (.name _) => True
  | .assign _ (.d _) => True
  | _ => False

/-- histories of calls and assignments, whether they raise or not, from an empty network and mode objects; `P` says which steps occur -/
inductive Fleet.Reachable (g : Graph K) (P : FleetStep K → Prop) : Fleet K → Prop
  | init (objects : Nat → Mode K) (h : ∀ i, (objects i).oid = i ∧ (objects i).InRange) : Fleet.Reachable g P ⟨objects, Network.init g⟩
  | call {s : Fleet K} (h : Fleet.Reachable g P s) {c : NetCall K} (hc : c.Of s.objects) (hP : P (.call c)) :
      Fleet.Reachable g P ((FleetStep.call c).run s).1
  | assign {s : Fleet K} (h : Fleet.Reachable g P s) {oid : Nat} {a : ModeAssign K} (hP : P (.assign oid a)) :
      Fleet.Reachable g P ((FleetStep.assign oid a).run s).1

end Sidermit
