import Verif.Model.Network

/-!
`routes_to_file` of network.py: the text of the table of routes.  The file system is not modelled: the function gives the
characters written.
-/

namespace Sidermit

variable {K : Type}

/-- the characters that make the csv writer of pandas (its default `QUOTE_MINIMAL`, with `;` as separator and `\n` as the
end of a row) put a cell between quotes.  Library behaviour, stated here, not part of /repo. -/
def csvSpecial (c : Char) : Bool := c == ';' || c == '"' || c == '\n'

/-- a quote inside a quoted cell is written twice -/
def csvEscape : Str → Str
  | [] => []
  | c :: t => if c = '"' then '"' :: '"' :: csvEscape t else c :: csvEscape t

/-- a cell as the csv writer prints it (`to_csv`, network.py:351) -/
def csvCell (s : Str) : Str := if s.any csvSpecial then '"' :: (csvEscape s ++ ['"']) else s

/-- a row as the csv writer prints it (network.py:351) -/
def csvRow (cells : List Str) : Str := joinWith ';' (cells.map csvCell) ++ ['\n']

/-- network.py:337-342: the cells of the row of a route -/
def Route.cells (r : Route K) : List Str :=
  [r.id, r.mode.name, sequencesToString r.nodesI, sequencesToString r.nodesR, sequencesToString r.stopsI,
    sequencesToString r.stopsR]

/-- network.py:344-349: the names of the columns -/
def routesHeader : List Str :=
  ["route_id".toList, "mode".toList, "nodes_sequence_i".toList, "nodes_sequence_r".toList, "stops_sequence_i".toList,
    "stops_sequence_r".toList]

/-- network.py:321-351 `routes_to_file`: the text written -/
def Network.routesFile (s : Network K) : Str := ((routesHeader :: s.routes.map Route.cells).map csvRow).flatten

end Sidermit
