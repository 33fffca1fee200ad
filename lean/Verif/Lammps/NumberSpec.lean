import Verif.Py
/-!
# Vocabulary for whole numbers in text
-/

namespace Verif.Lammps

/-- The text of decimal digits. -/
def digitText (ds : List Nat) : List Char := ds.map (fun d => Char.ofNat (48 + d))

/-- The number with these decimal digits, the most significant first. -/
def digitValue (ds : List Nat) : Nat := ds.foldl (fun v d => 10 * v + d) 0

/-- White space. -/
def White (w : List Char) : Prop := ∀ c ∈ w, c ∈ [' ', '\n', '\t', '\r', '\x0b', '\x0c']

/-- A group of digits. -/
def Digits (ds : List Nat) : Prop := ds ≠ [] ∧ ∀ d ∈ ds, d < 10

/-- What may stand before the digits, and what it makes of the number. -/
def signs : List (List Char × Int) := [([], 1), (['+'], 1), (['-'], -1)]

/-- A whole number as Python writes it: white space, a sign, groups of digits separated by one underscore each, white
space. -/
def Numeral (s : List Char) (i : Int) : Prop :=
  ∃ (a b : List Char) (sg : List Char × Int) (d : List Nat) (gs : List (List Nat)),
    White a ∧ White b ∧ sg ∈ signs ∧ Digits d ∧ (∀ g ∈ gs, Digits g) ∧
    s = a ++ (sg.1 ++ (digitText d ++ gs.flatMap (fun g => '_' :: digitText g))) ++ b ∧
    i = sg.2 * (digitValue (d ++ gs.flatten) : Int)

end Verif.Lammps
