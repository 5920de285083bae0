import Verif.Model.Hyperpath
import Verif.Model.Report
import Verif.Spec.Report

/-!
Readers of the reports on the itineraries, and what they should find.
-/

namespace Sidermit

/-- reads the lines from the last to the first: the places of the path that is being read, the paths of the stop, and the stops -/
def readItineraries : List Str → List Str × List (List Str) × List (Str × List (List Str))
  | [] => ([], [], [])
  | line :: rest =>
    if line = "\tNew Path:".toList then ([], (readItineraries rest).1 :: (readItineraries rest).2.1, (readItineraries rest).2.2)
    else
      match after "\t\t[".toList line with
      | some t => (t :: (readItineraries rest).1, (readItineraries rest).2.1, (readItineraries rest).2.2)
      | none =>
        if line = [] ∨ line = "\t\t".toList then readItineraries rest
        else ([], [], (line, (readItineraries rest).2.1) :: (readItineraries rest).2.2)

variable {K : Type}

/-- a place as it should be written: what it is, its name, and the label -/
def placeText (x : ENode K) (label : Str) : Str :=
  (match x with
   | .city c => "City_node ".toList ++ c.node.name
   | .stop s => "Stop_node ".toList ++ s.mode.name ++ " - ".toList ++ s.city.node.name
   | .route n => "Route_node ".toList ++ n.route.id ++ (match n.dir with | .I => " I - ".toList | .R => " R - ".toList) ++
      n.stop.city.node.name) ++ ": ".toList ++ label ++ "]".toList

/-- the names that are written for a node -/
def namesOf : ENode K → List Str
  | .city c => [c.node.name]
  | .stop s => [s.mode.name, s.city.node.name]
  | .route n => [n.route.id, n.stop.mode.name, n.stop.city.node.name]

/-- a name without line breaks and tabulators -/
def Untabbed (w : Str) : Prop := ∀ c ∈ w, c ≠ '\n' ∧ c ≠ '\t'

/-- what the summary says of a stop of the origin of a pair -/
structure Summary (K : Type) where
  origin : Str
  dest : Str
  trips : K
  mode : Str
  label : WithTop K
  paths : Int
  lines : Int

variable [Field K]

/-- the two lines of a stop; the fields are separated by commas -/
def readSummaryPair (a b : Str) : Option (Summary K) :=
  match splitOn ',' a, splitOn ',' b with
  | [o, d, v], [m, l, p, s] =>
    match after "origin: ".toList o, after " destination: ".toList d, (after " vij: ".toList v).bind readDecimal,
      after "\t mode: ".toList m, (after " label: ".toList l).bind (fun t => readTop (t.takeWhile fun c => c ≠ ' ')),
      (after " n° elemental paths: ".toList p).bind pyInt, (after " n° elemental paths (successors): ".toList s).bind pyInt with
    | some o, some d, some v, some m, some l, some p, some s => some ⟨o, d, v, m, l, p, s⟩
    | _, _, _, _, _, _, _ => none
  | _, _ => none

/-- the lines of the summary, two by two; the first line is empty, and the text ends with a break -/
def readSummaries : List Str → Option (List (Summary K))
  | a :: b :: c :: t =>
    match readSummaryPair a b, readSummaries (c :: t) with
    | some x, some l => some (x :: l)
    | _, _ => none
  | [[]] => some []
  | _ => none

/-- a name without line breaks and commas -/
def NoComma (w : Str) : Prop := ∀ c ∈ w, c ≠ '\n' ∧ c ≠ ','

variable [LinearOrder K]

/-- the summary says the same as the results: the names and numbers of ways exactly, the trips and the label up to half a
hundredth -/
structure SaysPair (r : ODResult K) (q : StopNode K × List (List (ENode K))) (s : Summary K) : Prop where
  origin : s.origin = r.origin.node.name
  dest : s.dest = r.dest.node.name
  trips : Near s.trips r.vij
  mode : s.mode = q.1.mode.name
  label : NearTop s.label (r.res.label (.stop q.1))
  paths : s.paths = q.2.length
  lines : s.lines = (r.res.succ (.stop q.1)).length

end Sidermit
