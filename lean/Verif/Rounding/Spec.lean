import Mathlib.Algebra.Order.Archimedean.Real.Basic
import Verif.Rounding.Model
/-!
# Vocabulary for the properties of rounded arithmetic
-/

namespace Verif.Rounding

/-- The numbers of a format: at most `digits` binary digits and no digit below `emin`. -/
def Format.Number (F : Format) (y : ℝ) : Prop :=
  ∃ m e : ℤ, |m| ≤ 2 ^ F.digits ∧ F.emin ≤ e ∧ y = m * (2 : ℝ) ^ e

/-- A function gives each real number one of the numbers nearest to it. -/
def Nearest (F : Format) (f : ℝ → ℝ) : Prop :=
  ∀ x, F.Number (f x) ∧ ∀ y, F.Number y → |f x - x| ≤ |y - x|

end Verif.Rounding
