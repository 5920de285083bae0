import Mathlib.Algebra.Order.Field.Basic
import Mathlib.Data.List.Basic
import Mathlib.Data.List.Nodup

/-!
Python basics shared by the whole model: exceptions as values, dictionaries, true division.
-/

namespace Sidermit

/-- Text is a list of characters (Python `str`). -/
abbrev Str := List Char

/-- The exceptions the modelled code can raise: the ones of `sidermit/exceptions.py` (same names without the
`Exception(s)` suffix) and the built-in ones that the code can run into. -/
inductive PyErr
  -- built-in exceptions
  | ValueError | ZeroDivisionError | IndexError | KeyError | AttributeError | TypeError
  -- sidermit/exceptions.py: city graph
  | NameIsNotDefined | NodeIdIsNotValid | ZoneIdIsNotValid | NodeRadiusIsNotValid | NodeAngleIsNotValid
  | NodeWidthIsNotValid | PeripheryNodeTypeIsNotValid | SubcenterNodeTypeIsNotValid
  | EdgeIdIsNotValid | EdgeIsNotAvailable
  | NIsNotValidNumber | LIsNotValidNumber | GIsNotValidNumber | PIsNotValidNumber
  | EthaValueRequired | EthaZoneValueRequired | EthaValueIsNotValid | EthaZoneValueIsNotValid
  | AngleListLengthIsNotValid | AngleValueIsNotValid | GiListLengthIsNotValid | GiValueIsNotValid
  | HiListLengthIsNotValid | HiValueIsNotValid
  | NodeTypeIsNotValid | NodeIdIsNotAnInteger | ZoneIdIsNotAnInteger | PajekFormatIsNotValid
  | LineNumberInFileIsNotValid | PeripherySubcenterNumberForZone | FileFormatIsNotValid
  | CBDDoesNotExist | NodeIdDuplicated
  -- demand
  | TripsValueIsNotValid | OriginIdDoesNotFound | DestinationIdDoesNotFound
  | YIsNotValid | AIsNotValid | AlphaIsNotValid | BetaIsNotValid
  | YOutOfRange | AOutOfRange | AlphaOutOfRange | BetaOutOfRange | AlphaBetaOutOfRange
  | NodeIdDemandIsNotAnInteger | DemandMatrixIsNotValid | VijIsNotValid
  -- modes and passengers
  | NameIsNotValid | ByaIsNotValid | CoIsNotValid | C1IsNotValid | C2IsNotValid | VIsNotValid | TIsNotValid
  | FmaxIsNotValid | KmaxIsNotValid | ThetaIsNotValid | TatIsNotValid | DIsNotValid | FiniIsNotValid
  | ModeDoesNotExist | ModeNotFound | AddMode | ModeIsNotValid
  | VaIsNotValid | PvIsNotValid | PwIsNotValid | PaIsNotValid | PtIsNotValid
  | SpvIsNotValid | SpwIsNotValid | SpaIsNotValid | SptIsNotValid
  -- routes and networks
  | NodeSequencesIsNotValid | StopSequenceIsNotValid | RouteIdIsNotValid | StopsSequences
  | FirstStopIsNotValid | LastStopIsNotValid | NotCycle
  | RouteIdNotFound | RouteIdDuplicated | RouteIsNotvalid | TransportMode | TransportNetwork
  | CircularRouteIsNotValid | JumpIsNotValid | TransportNetworkIsNotValid
  -- optimizer
  | NoOptimalSolutionFound | NegativeFrequency | ConstraintViolation
  -- not exceptions of Python: an operation with `inf` that the model leaves out, and a loop that does not end
  | NotANumber | Diverges
  deriving DecidableEq, Repr

/-- A Python call: a value or an exception. -/
abbrev Py (α : Type) := Except PyErr α

/-- Python true division of numbers: raises on a zero divisor. -/
def pyDiv {K : Type} [Field K] [DecidableEq K] (a b : K) : Py K :=
  if b = 0 then .error .ZeroDivisionError else .ok (a / b)

/-- `if c: raise e`. -/
def raiseIf (c : Prop) [Decidable c] (e : PyErr) : Py Unit :=
  if c then .error e else .ok ()

/-! ### Dictionaries

A Python `dict` is an association list in insertion order. -/

abbrev Dict (α β : Type) := List (α × β)

namespace Dict

variable {α β : Type} [DecidableEq α]

/-- `d.get(k)` -/
def get? : Dict α β → α → Option β
  | [], _ => none
  | (k', v) :: t, k => if k' = k then some v else get? t k

/-- `d[k] = v`: replaces in place, or appends a new key at the end. -/
def set : Dict α β → α → β → Dict α β
  | [], k, v => [(k, v)]
  | (k', v') :: t, k, v => if k' = k then (k', v) :: t else (k', v') :: set t k v

/-- Reading a `defaultdict` with default `dflt` (without the insertion). -/
def getD (d : Dict α β) (k : α) (dflt : β) : β := (d.get? k).getD dflt

/-- iteration order of the keys -/
def keys {α β : Type} (d : Dict α β) : List α := d.map Prod.fst

end Dict

/-- reading `table[a][b]` of a nested dictionary (no insertion) -/
def lookup2 {α β γ : Type} [DecidableEq α] [DecidableEq β] (d : Dict α (Dict β γ)) (a : α) (b : β) : Option γ :=
  (d.get? a).bind fun r => r.get? b

/-- `table[a][b] = v` on a nested `defaultdict` -/
def setCell {α β γ : Type} [DecidableEq α] [DecidableEq β] (m : Dict α (Dict β γ)) (a : α) (b : β) (v : γ) :
    Dict α (Dict β γ) := m.set a ((m.getD a []).set b v)

/-! ### Small list helpers -/

/-- consecutive pairs `(l[i], l[i+1])` for `i in range(len(l) - 1)` -/
def pairs {α : Type} : List α → List (α × α)
  | [] => []
  | [_] => []
  | a :: b :: t => (a, b) :: pairs (b :: t)

end Sidermit
