import Verif.Model.Pajek
import Verif.Model.Demand
import Verif.Model.Report

/-!
The files of the library as bytes: `graph_to_pajek_file` and `build_from_file` of graph.py, `matrix_to_file` and
`build_from_file` of demand.py, and `write_file_network_results` of optimizer.py.

A file is the list of its bytes, `none` if there is no such file.  Simplifications: the path can be opened; characters are
Unicode scalar values (a Python text may also hold lone surrogates); the bytes written are in the file when the call ends
(CPython closes a file object that nobody refers to).
-/

namespace Sidermit

variable {K : Type}

abbrev Bytes := List UInt8

/-- what `open(path, 'w')` takes from the machine: its default encoding (`none`: `UnicodeEncodeError`), and whether a line
ends in `\r\n` (Windows) or in `\n`.  Library behaviour, not part of /repo. -/
structure Machine where
  encode : Str → Option Bytes
  crlf : Bool

/-- the end of line of the machine in place of every `\n` (text mode of `open`, with the default `newline=None`) -/
def lineEnds (crlf : Bool) : Str → Str
  | [] => []
  | c :: t => if c = '\n' ∧ crlf = true then '\r' :: '\n' :: lineEnds crlf t else c :: lineEnds crlf t

/-- reading in text mode: `\r\n` and `\r` become `\n` (`newline=None`) -/
def plainEnds : Str → Str
  | [] => []
  | '\r' :: '\n' :: t => '\n' :: plainEnds t
  | '\r' :: t => '\n' :: plainEnds t
  | c :: t => c :: plainEnds t

/-- the encoding `utf-8` -/
def utf8 (s : Str) : Bytes := s.flatMap String.utf8EncodeChar

/-- decoding with `utf-8`; `none` stands for `UnicodeDecodeError` -/
def fromUtf8 (b : Bytes) : Option Str := b.toByteArray.utf8Decode?.map Array.toList

/-- graph.py:674-675 and demand.py:234-237: opening with `mode='r', encoding='utf-8'` and reading all of the file.
`UnicodeDecodeError` is a `ValueError`. -/
def readText (b : Bytes) : Py Str :=
  match fromUtf8 b with
  | some s => .ok (plainEnds s)
  | none => .error .ValueError

/-- graph.py:242-254 `graph_to_pajek_file`: what the path holds afterwards and how the call ends.  Opening with `'w'` empties
the file before anything is written, and the text is encoded as a whole before the first byte is written.
`UnicodeEncodeError` is a `ValueError`. -/
def Graph.toPajekFile [NumText K] (m : Machine) (g : Graph K) (_before : Option Bytes) : Option Bytes × Py Unit :=
  match m.encode (lineEnds m.crlf g.exportPajek) with
  | some b => (some b, .ok ())
  | none => (some [], .error .ValueError)

/-- optimizer.py:735-744 `write_file_network_results`: the text is made before the file is opened -/
def Optimizer.writeNetworkResults [Field K] [LinearOrder K] [FloorRing K] [NumText K] [PyMath K]
    (m : Machine) (o : Optimizer K) (best : Option (Res K)) (before : Option Bytes) : Option Bytes × Py Unit :=
  match o.stringNetworkResults best with
  | .ok t => (some (utf8 (lineEnds m.crlf t)), .ok ())
  | .error e => (before, .error e)

/-- demand.py:40-61 `matrix_to_file`: `to_csv` writes `utf-8` and ends its rows as the machine does -/
def Demand.matrixToFile [NumText K] (m : Machine) (d : Demand K) : Bytes := utf8 (lineEnds m.crlf d.toCsv)

/-- demand.py:222-251 `build_from_file`, on the bytes of the file -/
def Demand.buildFromBytes [Field K] [LinearOrder K] [NumText K] (g : Graph K) (b : Bytes) : Py (Demand K) := do
  let s ← readText b
  Demand.buildFromFile g s

/-- graph.py:664-680 `build_from_file`, on the bytes of the file -/
def Graph.buildFromBytes [Field K] [LinearOrder K] [PyMath K] [NumText K] (b : Bytes) : Py (Graph K) := do
  let s ← readText b
  buildFromContent s

end Sidermit
