import Verif.Spec.Network

/-!
Specification: requests for families of predefined routes.
-/

namespace Sidermit

variable {K : Type}

/-- a call of one of the generators of predefined routes -/
inductive FamilyRequest (K : Type)
  | circular (m : Mode K)
  | feeder (m : Mode K)
  | radial (m : Mode K) (short express : Bool)
  | diametral (m : Mode K) (jump : Int) (short express : Bool)
  | tangential (m : Mode K) (jump : Int) (short express : Bool)
  deriving DecidableEq

namespace FamilyRequest

/-- the call itself -/
def run (s : Network K) : FamilyRequest K → Py (List (Route K))
  | circular m => s.circularRoutes m
  | feeder m => s.feederRoutes m
  | radial m short express => s.radialRoutes m short express
  | diametral m jump short express => s.diametralRoutes m jump short express
  | tangential m jump short express => s.tangentialRoutes m jump short express

/-- the mode asked for -/
def mode : FamilyRequest K → Mode K
  | circular m => m
  | feeder m => m
  | radial m _ _ => m
  | diametral m _ _ _ => m
  | tangential m _ _ _ => m

/-- the generator has routes to offer in a city with `n` zones -/
def Possible (n : Nat) : FamilyRequest K → Prop
  | circular _ => 2 ≤ n
  | feeder _ => True
  | radial _ _ _ => True
  | diametral _ jump _ _ => 1 ≤ jump ∧ 2 * jump ≤ n
  | tangential _ jump _ _ => 1 ≤ jump ∧ 2 * jump ≤ n

/-- the lines asked for: the express variant of short radial lines is the short radial line -/
def lines : FamilyRequest K → FamilyRequest K
  | radial m true _ => radial m true false
  | q => q

end FamilyRequest

end Sidermit
