import Verif.Model.Results
import Verif.Spec.Demand

/-!
Readers of the text reports, written without the printing functions: what a user gets who opens the file in a spreadsheet or
looks for a line of the report.
-/

namespace Sidermit

variable {K : Type}

section Numbers

variable [Field K]

/-- digits, a point and digits -/
def readPlain (s : Str) : Option K :=
  match splitOn '.' s with
  | [a, b] =>
    match parseDigits 0 false a, parseDigits 0 false b with
    | some x, some y => some ((x : K) + (y : K) / 10 ^ b.length)
    | _, _ => none
  | _ => none

/-- the same with a sign -/
def readDecimal (s : Str) : Option K :=
  match s with
  | '-' :: t => (readPlain t).map fun x => -x
  | t => readPlain t

/-- the same or `inf` -/
def readTop (s : Str) : Option (WithTop K) :=
  if s = "inf".toList then some ⊤ else (readDecimal s).map fun x : K => (x : WithTop K)

end Numbers

/-- the brackets and blanks of a printed list of tuples -/
def bracket (c : Char) : Bool := c = '[' || c = ']' || c = '(' || c = ')' || c = ' '

section Tables

variable [NumText K]

/-- cells, three by three: two nodes and a charge -/
def triples : List Str → Option (List (Int × Int × K))
  | [] => some []
  | a :: b :: c :: t =>
    match pyInt a, pyInt b, NumText.parse c, triples t with
    | some i, some j, some x, some l => some ((i, j, x) :: l)
    | _, _, _, _ => none
  | _ => none

/-- a printed list of tuples -/
def readSections (s : Str) : Option (List (Int × Int × K)) :=
  if s.filter (fun c => !bracket c) = [] then some [] else triples (splitOn ',' (s.filter fun c => !bracket c))

variable [Field K]

/-- a line of the file, in ten columns separated by semicolons -/
def readRow (s : Str) : Option (Row K) :=
  match splitOn ';' s with
  | [id, a, b, c, d, e, f, g, h, i] =>
    match readDecimal a, readDecimal b, readDecimal c, readDecimal d, readDecimal e, readDecimal f, readTop g, readSections h,
      readSections i with
    | some a, some b, some c, some d, some e, some f, some g, some h, some i => some ⟨id, a, b, c, d, e, f, g, h, i⟩
    | _, _, _, _, _, _, _, _, _ => none
  | _ => none

/-- the lines after the first one -/
def readReport (s : Str) : Option (List (Row K)) := ((splitOn '\n' s).drop 1).mapM readRow

end Tables

section Close

variable [Field K] [LinearOrder K]

/-- equal up to half a hundredth -/
def Near (x y : K) : Prop := |x - y| ≤ 1 / 200

/-- both infinite, or both finite and near -/
def NearTop (x y : WithTop K) : Prop := (x = ⊤ ∧ y = ⊤) ∨ ∃ a b : K, x = a ∧ y = b ∧ Near a b

/-- the row `s` says the same as `r`: the name and the two tables exactly, the numbers up to half a hundredth -/
structure SaysSame (r s : Row K) : Prop where
  id : s.id = r.id
  f : Near s.f r.f
  perLine : Near s.perLine r.perLine
  k : Near s.k r.k
  fleet : Near s.fleet r.fleet
  minutes : Near s.minutes r.minutes
  co : Near s.co r.co
  leastLoad : NearTop s.leastLoad r.leastLoad
  tableI : s.tableI = r.tableI
  tableR : s.tableR = r.tableR

end Close

/-- a number whose printed form reads back as the same number and has no separators, brackets or white space -/
def PrintsPlain [NumText K] (v : K) : Prop :=
  PrintsWell v ∧ (NumText.fmt v : Str) ≠ [] ∧ ∀ c ∈ (NumText.fmt v : Str), c ≠ ';' ∧ bracket c = false

/-- a name without separators of columns and lines -/
def PlainName (s : Str) : Prop := ∀ c ∈ s, c ≠ ';' ∧ c ≠ '\n'

/-- what follows a label, in a line that begins with it -/
def after (label line : Str) : Option Str := if label.isPrefixOf line then some (line.drop label.length) else none

/-- the number after a label, in the first line that begins with it -/
def valueAfter [Field K] (label text : Str) : Option K :=
  ((splitOn '\n' text).findSome? (after label)).bind readDecimal

/-- the modes of the report of overall results, five lines for each: the name, the vehicles, their capacity and the lines -/
def readModes [Field K] : List Str → Option (List (Str × K × K × Int))
  | [] => some []
  | _ :: a :: b :: c :: e :: t =>
    match after "\tMode name: ".toList a, (after "\tB [veh]      : ".toList b).bind readDecimal,
      (after "\tK [pax/veh]  : ".toList c).bind readDecimal, (after "\tL [lines]    : ".toList e).bind pyInt, readModes t with
    | some a, some b, some c, some e, some l => some ((a, b, c, e) :: l)
    | _, _, _, _, _ => none
  | _ => none

end Sidermit
