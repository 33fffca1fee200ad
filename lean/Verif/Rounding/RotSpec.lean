import Mathlib.Analysis.SpecialFunctions.Trigonometric.Basic
import Verif.Rounding.StoreSpec
/-!
# Vocabulary for the properties of rotations in single precision
-/

namespace Verif.Rounding

open Verif.Motion

/-- A quaternion for the rotation by `θ` about z, of either sign, off by at most `ε`. -/
def Near (ε : ℝ) (q : Quat) (θ : ℝ) : Prop :=
  q.imI = 0 ∧ q.imJ = 0 ∧ ∃ σ : ℝ, (σ = 1 ∨ σ = -1) ∧
    (q.re - σ * Real.cos (θ / 2)) ^ 2 + (q.imK - σ * Real.sin (θ / 2)) ^ 2 ≤ ε ^ 2

end Verif.Rounding
