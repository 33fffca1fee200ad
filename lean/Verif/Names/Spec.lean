import Verif.Names.Model
/-!
# Specification of file names, directories and temporary parameters

Stated without the splitting and formatting helpers of the model: a name is a concatenation of
pieces, a number is the value of its decimal digits.
-/

namespace Verif.Names

/-- The pieces joined by dashes. -/
def dashed : List (List Char) → List Char
  | [] => []
  | [x] => x
  | x :: y :: xs => x ++ '-' :: dashed (y :: xs)

/-- A path whose last component is made of the given pieces and an extension. -/
def namedPath (dir : List Char) (pieces : List (List Char)) (ext : List Char) : List Char :=
  dir ++ '/' :: (dashed pieces ++ '.' :: ext)

/-- A piece of a name holds no separator. -/
def Plain (w : List Char) : Prop := '-' ∉ w ∧ '/' ∉ w

/-- An extension. -/
def Extension (e : List Char) : Prop := e ≠ [] ∧ '.' ∉ e ∧ '/' ∉ e

/-- The four kinds of fields. -/
inductive Kind where
  | pressure | temperature | iterationId | crystal
  deriving DecidableEq

/-- The field `w` gives the value `x` to the variable `k`. -/
def Gives (w : List Char) (k : Kind) (x : List Char) : Prop :=
  match k with
  | .pressure => w = 'P' :: x
  | .temperature => w = 'T' :: x
  | .iterationId => w = 'I' :: 'D' :: x
  | .crystal => w = x ∧ w ≠ [] ∧ ¬ ['P'] <+: w ∧ ¬ ['T'] <+: w ∧ ¬ "ID".toList <+: w

/-- The value of the variable of kind `k`. -/
def Variables.get (v : Variables) : Kind → Option (List Char)
  | .pressure => v.pressure
  | .temperature => v.temperature
  | .iterationId => v.iterationId
  | .crystal => v.crystal

/-- Value of a list of decimal digits, most significant first. -/
def digitsValue : List Nat → Nat
  | ds => ds.foldl (fun a d => 10 * a + d) 0

/-- `s` is the plain decimal text of `q`: digits, a dot, two digits. -/
def DecimalText (s : List Char) (q : ℚ) : Prop :=
  ∃ (ds : List Nat) (a b : Nat), ds ≠ [] ∧ (∀ d ∈ ds, d < 10) ∧ a < 10 ∧ b < 10 ∧
    s = ds.map (fun d => Char.ofNat (48 + d)) ++ ['.', Char.ofNat (48 + a), Char.ofNat (48 + b)] ∧
    q = digitsValue ds + (10 * a + b : ℕ) / 100

/-- `r` is `x` rounded to two decimals. -/
def RoundedTo2 (x r : ℚ) : Prop := (∃ n : ℤ, r = n / 100) ∧ |r - x| ≤ 1 / 200

/-- The builtin `float` reads plain decimal text. -/
def ReadsDecimals (float : List Char → Option ℚ) : Prop :=
  ∀ s q, DecimalText s q → float s = some q

/-- A name for a space group: no separator, and not looking like another field. -/
def SpaceGroupName (sg : List Char) : Prop :=
  Plain sg ∧ sg ≠ [] ∧ ¬ ['P'] <+: sg ∧ ¬ ['T'] <+: sg ∧ ¬ "ID".toList <+: sg

/-- The prefixes in use. -/
def KnownPrefix (pre : Option (List Char)) : Prop :=
  pre = none ∨ pre = some "dump".toList ∨ pre = some "trajectory".toList ∨
    pre = some "thermo".toList

/-- The entry of the nested dictionary. -/
def Tree.lookup (d : Tree) (p t c i : List Char) : Option (List Char) :=
  ((((Dict.get? d p).bind fun a => Dict.get? a t).bind fun b => Dict.get? b c).bind
    fun e => Dict.get? e i)

/-- `str` of an optional value is `s`. -/
def PrintsAs (o : Option (List Char)) (s : List Char) : Prop :=
  o = some s ∨ (o = none ∧ s = "None".toList)

/-- The variables of the file `f` are the given ones. -/
def Under (f p t c i : List Char) : Prop :=
  ∃ v, fromFilename f = .ok v ∧ v.pressure = some p ∧ v.temperature = some t ∧
    PrintsAs v.crystal c ∧ PrintsAs v.iterationId i

/-- The file `f` has a pressure and a temperature. -/
def HasPT (f : List Char) : Prop :=
  ∃ v p t, fromFilename f = .ok v ∧ v.pressure = some p ∧ v.temperature = some t ∧
    p ≠ [] ∧ t ≠ []

end Verif.Names
