import Verif.Molecule.ReprModel
/-!
# Vocabulary for C177: what `repr` of a molecule says
-/

namespace Verif.Molecule

/-- A number as Python has them, not NaN; `F` are the numbers that are floats. -/
def Arg.Plain (F : ℝ → Prop) : Arg → Prop
  | .int _ => True
  | .float x => F x
  | .nan => False
  | .other => False

/-- What is assumed of Python: numbers that are not NaN are written without a comma and read back as they
were; NaN is written as a name that is not defined. -/
structure FaithfulNumbers (F : ℝ → Prop) (sh : Shown) (rd : Reader) : Prop where
  reads : ∀ x : Arg, x.Plain F → rd.defined (sh.number x) = true ∧ rd.number (sh.number x) = x
  noComma : ∀ x : Arg, x.Plain F → ',' ∉ sh.number x
  noBracket : ∀ x : Arg, x.Plain F → ')' ∉ sh.number x
  nan : rd.defined (sh.number .nan) = false

/-- What a faithful `repr` would be: evaluating it makes an object that is equal. -/
def RoundTrip (sh : Shown) (rd : Reader) (m : Making) : Prop :=
  ∃ m' a b, evalCall rd (m.repr sh) = .ok m' ∧ m.mol = .ok a ∧ m'.mol = .ok b ∧ pyEq a b = .ok true

end Verif.Molecule
