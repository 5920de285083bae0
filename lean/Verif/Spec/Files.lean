import Verif.Model.Files
import Verif.Spec.Pajek

/-!
Machines and files, stated without the code that reads and writes them.
-/

namespace Sidermit

variable {K : Type}

/-- the default encoding of the machine is `utf-8` -/
def Machine.Utf8 (m : Machine) : Prop := ∀ s, m.encode s = some (utf8 s)

/-- a text of the 128 characters of ASCII -/
def IsAscii (s : Str) : Prop := ∀ c ∈ s, c.toNat < 128

/-- the default encoding of the machine is one of those that write ASCII as it is (Latin-1, cp1252, and most others) -/
def Machine.ForAscii (m : Machine) : Prop := ∀ s, IsAscii s → m.encode s = some (s.map fun c => UInt8.ofNat c.toNat)

/-- what is printed of the node is ASCII -/
structure AsciiNode [NumText K] (nd : Node K) : Prop where
  name : IsAscii nd.name
  x : IsAscii (NumText.fmt nd.x)
  y : IsAscii (NumText.fmt nd.y)
  width : IsAscii (NumText.fmt nd.width)

/-- Latin-1: the first 256 characters, one byte each -/
def latin1 (s : Str) : Option Bytes :=
  if ∀ c ∈ s, c.toNat < 256 then some (s.map fun c => UInt8.ofNat c.toNat) else none

/-- a machine with Latin-1 as its default encoding -/
def latin1Machine : Machine := ⟨latin1, false⟩

/-- the second text is the first with every end of line written in one of the three ways: `\n`, `\r\n`, or `\r` -/
inductive EndsAs : Str → Str → Prop
  | nil : EndsAs [] []
  | char {c : Char} {s t : Str} : c ≠ '\n' → c ≠ '\r' → EndsAs s t → EndsAs (c :: s) (c :: t)
  | lf {s t : Str} : EndsAs s t → EndsAs ('\n' :: s) ('\n' :: t)
  | crlf {s t : Str} : EndsAs s t → EndsAs ('\n' :: s) ('\r' :: '\n' :: t)
  | cr {s t : Str} : t.head? ≠ some '\n' → EndsAs s t → EndsAs ('\n' :: s) ('\r' :: t)

/-- the mark that some programs put before a text in `utf-8` -/
def byteOrderMark : Char := Char.ofNat 0xfeff

end Sidermit
