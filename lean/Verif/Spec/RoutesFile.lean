import Verif.Model.RoutesFile

/-!
Specification: reading a table of cells separated by `;`, with quoted cells.
-/

namespace Sidermit

variable {K : Type}

/-- where the reader is: at the beginning of a cell, inside a plain cell, between quotes, or after a quote that was met
between quotes -/
inductive CsvPos
  | start | plain | quoted | closing
  deriving DecidableEq

/-- Reads a table: `cell` are the characters of the cell being read, `row` the cells of the row being read.  A text that
does not end at the end of a row is not a table. -/
def readTable : CsvPos → Str → List Str → Str → Option (List (List Str))
  | .start, [], [], [] => some []
  | _, _, _, [] => none
  | .start, cell, row, c :: t =>
    if c = '"' then readTable .quoted cell row t
    else if c = ';' then readTable .start [] (row ++ [cell]) t
    else if c = '\n' then (readTable .start [] [] t).map (fun rows => (row ++ [cell]) :: rows)
    else readTable .plain (cell ++ [c]) row t
  | .plain, cell, row, c :: t =>
    if c = ';' then readTable .start [] (row ++ [cell]) t
    else if c = '\n' then (readTable .start [] [] t).map (fun rows => (row ++ [cell]) :: rows)
    else readTable .plain (cell ++ [c]) row t
  | .quoted, cell, row, c :: t =>
    if c = '"' then readTable .closing cell row t else readTable .quoted (cell ++ [c]) row t
  | .closing, cell, row, c :: t =>
    if c = '"' then readTable .quoted (cell ++ ['"']) row t
    else if c = ';' then readTable .start [] (row ++ [cell]) t
    else if c = '\n' then (readTable .start [] [] t).map (fun rows => (row ++ [cell]) :: rows)
    else none

/-- the rows of a text -/
def rowsOfText (text : Str) : Option (List (List Str)) := readTable .start [] [] text

/-- what a user does with a row of the file: looks up the mode by its name and calls the constructor of routes with the
other cells -/
def routeOfRow (modes : List (Mode K)) (type : RouteType) : List Str → Py (Route K)
  | [id, mode, nodesI, nodesR, stopsI, stopsR] =>
    match modes.find? (fun m => m.name = mode) with
    | some m => mkRoute (some id) m (some nodesI) (some nodesR) (some stopsI) (some stopsR) type
    | none => .error .KeyError
  | _ => .error .IndexError

end Sidermit
