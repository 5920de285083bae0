import Verif.Base

/-!
Python text primitives used by the parsers and printers of the code, on lists of characters (ASCII only:
Unicode digits and white space are not modelled).
-/

namespace Sidermit

/-- the decimal digit character of `d < 10` -/
def digitChar (d : Nat) : Char :=
  match d with
  | 0 => '0' | 1 => '1' | 2 => '2' | 3 => '3' | 4 => '4'
  | 5 => '5' | 6 => '6' | 7 => '7' | 8 => '8' | _ => '9'

/-- value of a decimal digit character -/
def digitVal (c : Char) : Option Nat :=
  if '0' ≤ c ∧ c ≤ '9' then some (c.toNat - '0'.toNat) else none

def showNatAux : Nat → Nat → Str
  | 0, _ => []
  | fuel + 1, n => if n < 10 then [digitChar n] else showNatAux fuel (n / 10) ++ [digitChar (n % 10)]

/-- `str(n)` for a natural number -/
def showNat (n : Nat) : Str := showNatAux (n + 1) n

/-- `str(i)` for an integer -/
def showInt : Int → Str
  | .ofNat n => showNat n
  | .negSucc n => '-' :: showNat (n + 1)

/-- white space in Python texts (`str.isspace` for one character), as skipped by `split()`, `strip()`, `int` and `float` -/
def isSpace (c : Char) : Bool :=
  c = ' ' || c = '\t' || c = '\n' || c = '\r' || c = '\x0b' || c = '\x0c' || (0x1c ≤ c.toNat && c.toNat ≤ 0x1f) ||
    c.toNat = 0x85 || c.toNat = 0xa0 || c.toNat = 0x1680 || (0x2000 ≤ c.toNat && c.toNat ≤ 0x200a) || c.toNat = 0x2028 ||
    c.toNat = 0x2029 || c.toNat = 0x202f || c.toNat = 0x205f || c.toNat = 0x3000

/-- `s.rstrip("\n")` -/
def rstripNewline (s : Str) : Str := (s.reverse.dropWhile (· = '\n')).reverse

/-- `s.strip()` -/
def strip (s : Str) : Str := ((s.dropWhile isSpace).reverse.dropWhile isSpace).reverse

/-- the digits part of `int(...)`: digits, optionally separated by single underscores -/
def parseDigits (acc : Nat) (afterDigit : Bool) : Str → Option Nat
  | [] => if afterDigit then some acc else none
  | c :: cs =>
    match digitVal c with
    | some d => parseDigits (acc * 10 + d) true cs
    | none => if c = '_' ∧ afterDigit = true then parseDigits acc false cs else none

/-- `int(s)` on text; `none` stands for `ValueError` -/
def pyInt (s : Str) : Option Int :=
  match strip s with
  | '-' :: cs => (parseDigits 0 false cs).map fun n => -(n : Int)
  | '+' :: cs => (parseDigits 0 false cs).map fun n => (n : Int)
  | cs => (parseDigits 0 false cs).map fun n => (n : Int)

/-- `s.split(sep)` for a one-character separator -/
def splitOn (sep : Char) : Str → List Str
  | [] => [[]]
  | c :: cs =>
    if c = sep then [] :: splitOn sep cs
    else match splitOn sep cs with
      | [] => [[c]]
      | w :: ws => (c :: w) :: ws

/-- `s.split()`: maximal runs of non-space characters; `cur` is the current run reversed -/
def splitWsAux : Str → Str → List Str
  | cur, [] => if cur = [] then [] else [cur.reverse]
  | cur, c :: cs =>
    if isSpace c then (if cur = [] then splitWsAux [] cs else cur.reverse :: splitWsAux [] cs)
    else splitWsAux (c :: cur) cs

/-- `s.split()` -/
def splitWs (s : Str) : List Str := splitWsAux [] s

/-- `sep.join(parts)` for a one-character separator -/
def joinWith (sep : Char) : List Str → Str
  | [] => []
  | [w] => w
  | w :: ws => w ++ sep :: joinWith sep ws

end Sidermit
