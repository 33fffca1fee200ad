import Mathlib.Analysis.SpecialFunctions.Trigonometric.Basic
import Verif.Rounding.Spec
/-!
# Vocabulary for the scattering function
-/

namespace Verif.Rounding

/-- A function of float64 whose values are those of `g` up to `δ`. -/
def IsFun64 (δ : ℝ) (f g : ℝ → ℝ) : Prop := ∀ x, float64.Number x → |f x - g x| ≤ δ

end Verif.Rounding
