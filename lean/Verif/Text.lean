import Verif.Py
/-!
# Python text primitives shared by the models

Text is a list of characters.  Simplification: white space is ASCII white space, decimal digits
are the ASCII ones.
-/

namespace Verif.Text

/-- Characters removed by `str.strip` and separating in `str.split()`.  Simplification: the control characters 0x1c to
0x1f and the white space outside ASCII are left out. -/
def isSpace (c : Char) : Bool :=
  c = ' ' || c = '\n' || c = '\t' || c = '\r' || c = '\x0b' || c = '\x0c'

/-- `file.readline()`: up to and including the newline; the empty string at the end of the
file. Returns the rest of the file too. -/
def readline : List Char → List Char × List Char
  | [] => ([], [])
  | c :: cs => if c = '\n' then (['\n'], cs) else (c :: (readline cs).1, (readline cs).2)

/-- `str.lstrip`. -/
def lstrip (s : List Char) : List Char := s.dropWhile isSpace

/-- `str.rstrip`. -/
def rstrip (s : List Char) : List Char := (s.reverse.dropWhile isSpace).reverse

/-- `str.strip()`. -/
def strip (s : List Char) : List Char := lstrip (rstrip s)

/-- `str.split()` with the current word `acc`. -/
def splitWsGo (acc : List Char) : List Char → List (List Char)
  | [] => if acc = [] then [] else [acc]
  | c :: cs =>
    if isSpace c then (if acc = [] then splitWsGo [] cs else acc :: splitWsGo [] cs)
    else splitWsGo (acc ++ [c]) cs

/-- `str.split()`: maximal runs of non white space. -/
def splitWs (s : List Char) : List (List Char) := splitWsGo [] s

/-- `str.split(sep)` for a one character separator, with the current piece `acc`. -/
def splitOnGo (sep : Char) (acc : List Char) : List Char → List (List Char)
  | [] => [acc]
  | c :: cs => if c = sep then acc :: splitOnGo sep [] cs else splitOnGo sep (acc ++ [c]) cs

/-- `str.split(sep)` for a one character separator. -/
def splitOn (sep : Char) (s : List Char) : List (List Char) := splitOnGo sep [] s

/-- `sub in s` for strings. -/
def hasSub (sub : List Char) : List Char → Bool
  | [] => sub.isEmpty
  | c :: cs => sub.isPrefixOf (c :: cs) || hasSub sub cs

/-- Value of a decimal digit. -/
def digitVal (c : Char) : Option Nat :=
  if 48 ≤ c.toNat ∧ c.toNat ≤ 57 then some (c.toNat - 48) else none

/-- Digits, single underscores allowed between digits, from the value `v` so far. -/
def natGo (v : Nat) (afterDigit : Bool) : List Char → Option Nat
  | [] => if afterDigit then some v else none
  | c :: cs =>
    match digitVal c with
    | some d => natGo (v * 10 + d) true cs
    | none => if c = '_' && afterDigit then natGo v false cs else none

/-- `int(s)`: white space is stripped, an optional sign, digits; `none` is ValueError. -/
def pyInt (s : List Char) : Option Int :=
  match strip s with
  | '-' :: ds => (natGo 0 false ds).map (fun n => -(n : Int))
  | '+' :: ds => (natGo 0 false ds).map (fun n => (n : Int))
  | ds => (natGo 0 false ds).map (fun n => (n : Int))

end Verif.Text
