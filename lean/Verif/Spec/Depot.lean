import Verif.Model.Depot
import Verif.Spec.Network

/-!
What the properties on assignments to routes say: the steps and the histories.
-/

namespace Sidermit

variable {K : Type}

/-- a call on the network, with route objects, or an assignment to a route object -/
inductive DepotStep (K : Type)
  | addRoute (k : Nat)
  | removeRoute (n : Str)
  | addMode (m : Mode K)
  | removeMode (m : Mode K)
  | assign (k : Nat) (a : RouteAssign K)

/-- the name of a route is assigned -/
def DepotStep.Renames : DepotStep K → Prop
  | .assign _ (.id _) => True
  | _ => False

/-- the objects and the network after a step, and the exception, if any -/
def DepotStep.run [DecidableEq K] (s : Depot K) : DepotStep K → Depot K × Option PyErr
  | .addRoute k => s.addRoute k
  | .removeRoute n => s.removeRoute n
  | .addMode m => s.addTransportMode m
  | .removeMode m => s.removeTransportMode m
  | .assign k a => (s.assign k a, none)

/-- the same call on a network of route values, if it is one -/
def DepotStep.call (objects : Nat → Route K) : DepotStep K → Option (NetCall K)
  | .addRoute k => some (.addRoute (objects k))
  | .removeRoute n => some (.removeRoute n)
  | .addMode m => some (.addMode m)
  | .removeMode m => some (.removeMode m)
  | .assign _ _ => none

/-- histories, whether the steps raise or not, from an empty network; `P` says which steps occur -/
inductive Depot.Reachable [DecidableEq K] (g : Graph K) (P : DepotStep K → Prop) : Depot K → Prop
  | init (objects : Nat → Route K) : Depot.Reachable g P ⟨objects, g, [], [], []⟩
  | step {s : Depot K} (h : Depot.Reachable g P s) (c : DepotStep K) (hP : P c) : Depot.Reachable g P (c.run s).1

end Sidermit
