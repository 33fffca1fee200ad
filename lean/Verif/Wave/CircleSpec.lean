import Mathlib.MeasureTheory.Integral.IntervalIntegral.Basic
import Mathlib.Analysis.SpecialFunctions.Trigonometric.Basic
/-!
# Vocabulary for the scattering function in all directions
-/

namespace Verif.Wave

/-- The component of the vector `(x, y)` in the direction `θ`. -/
noncomputable def along (x y θ : ℝ) : ℝ := Real.cos θ * x + Real.sin θ * y

/-- The average of `cos (k · d)` over all directions of a wave vector of length `k`, for the
displacement `(x, y)`. -/
noncomputable def overCircle (k x y : ℝ) : ℝ :=
  (∫ θ in (0 : ℝ)..(2 * Real.pi), Real.cos (k * along x y θ)) / (2 * Real.pi)

/-- The distance moved in the plane. -/
noncomputable def planar (v : ℝ × ℝ × ℝ) : ℝ := Real.sqrt (v.1 ^ 2 + v.2.1 ^ 2)

/-- The Bessel function of order 0, as an integral. -/
noncomputable def bessel0 (z : ℝ) : ℝ :=
  (∫ θ in (0 : ℝ)..(2 * Real.pi), Real.cos (z * Real.cos θ)) / (2 * Real.pi)

end Verif.Wave
