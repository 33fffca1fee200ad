import Mathlib.Analysis.SpecialFunctions.Trigonometric.Basic
import Verif.Rounding.MomentSpec
import Verif.Rounding.Spec
/-!
# Vocabulary for the errors of lengths and of what is computed from them
-/

namespace Verif.Rounding

open Verif.Motion

/-- The length of a vector. -/
noncomputable def length3 (v : V3) : ℝ := Real.sqrt (v.1 ^ 2 + v.2.1 ^ 2 + v.2.2 ^ 2)

open Classical in
/-- The proportion of vectors shorter than `d`. -/
noncomputable def shorter (d : ℝ) (l : List V3) : ℝ :=
  ((l.filter (fun v => decide (length3 v < d))).length : ℝ) / l.length

/-- A cosine whose values are right up to `δ`. -/
def IsCos (δ : ℝ) (cos32 : ℝ → ℝ) : Prop := ∀ x, float32.Number x → |cos32 x - Real.cos x| ≤ δ

end Verif.Rounding
