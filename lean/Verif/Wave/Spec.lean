import Mathlib.MeasureTheory.Integral.IntervalIntegral.Basic
import Verif.Dynamics.Spec
import Verif.Motion.Spec
/-!
# Vocabulary for the properties of wave numbers and wave vectors
-/

namespace Verif.Wave

open Verif.Motion

open scoped BigOperators

/-- The static structure factor of `n` particles in a volume at wave number `k` from a radial
distribution function with values `g j` in bins of width `w` with centres `r j`. -/
noncomputable def structureFactor {B : ℕ} (r g : Fin B → ℝ) (w volume : ℝ) (n : ℕ) (k : ℝ) : ℝ :=
  1 + 4 * Real.pi * (n / volume) * ∑ j, w * ((g j - 1) * r j * (Real.sin (k * r j) / k))

/-- The circular average of `cos (k·r)` over the directions of `r` in the plane. -/
noncomputable def circleAverage (x : ℝ) : ℝ :=
  (∫ θ in (0 : ℝ)..(2 * Real.pi), Real.cos (x * Real.cos θ)) / (2 * Real.pi)

/-- The static structure factor of `n` particles in the plane, on a given area. -/
noncomputable def planarStructureFactor {B : ℕ} (r g : Fin B → ℝ) (w area : ℝ) (n : ℕ) (k : ℝ) : ℝ :=
  1 + 2 * Real.pi * (n / area) * ∑ j, w * ((g j - 1) * r j * circleAverage (k * r j))

/-- Turn a vector about the z axis. -/
noncomputable def turn (α : ℝ) (v : V3) : V3 :=
  (Real.cos α * v.1 - Real.sin α * v.2.1, Real.sin α * v.1 + Real.cos α * v.2.1, v.2.2)

end Verif.Wave
