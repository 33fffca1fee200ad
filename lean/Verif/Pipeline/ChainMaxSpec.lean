import Verif.Pipeline.ChainSpec
/-!
# Vocabulary for C138
-/

namespace Verif.Pipeline

open Verif.Motion Verif.Dynamics

/-- By how much the ratio of `a` to `b` differs from one; NaN if there is no ratio. -/
noncomputable def excess (a b : ℝ) : Option ℝ := open Classical in if b = 0 then none else some (a / b - 1)

/-- The row gives the non-Gaussian parameters, in two dimensions and one, and the coupling of displacements and
rotations, of molecules which have moved by `d` and turned by the angles `φ`. -/
structure TrueRatios {N : ℕ} (row : Dict Quantity Val) (d : Fin N → V3) (φ : Fin N → ℝ) : Prop where
  alpha : Dict.get? row .alpha = some (.num (excess (avg (fun m => len (d m) ^ 4))
    (2 * avg (fun m => len (d m) ^ 2) ^ 2)))
  alpha_rot : Dict.get? row .alpha_rot = some (.num (excess (avg (fun m => φ m ^ 4))
    (3 * avg (fun m => φ m ^ 2) ^ 2)))
  gamma : Dict.get? row .gamma = some (.num (excess (avg (fun m => len (d m) ^ 2 * φ m ^ 2))
    (avg (fun m => len (d m) ^ 2) * avg (fun m => φ m ^ 2))))

/-- The true course of the quantities of which the time of the largest value is reported. -/
def Course.Peaked {N : ℕ} (C : Course N) (q : Quantity) (y : ℕ → Option ℝ) : Prop :=
  (q = .alpha ∧ ∀ i, y i = excess (avg (fun m => C.moved m i ^ 4)) (2 * avg (fun m => C.moved m i ^ 2) ^ 2)) ∨
  (q = .gamma ∧ ∀ i, y i = excess (avg (fun m => C.moved m i ^ 2 * C.turned m i ^ 2))
    (avg (fun m => C.moved m i ^ 2) * avg (fun m => C.turned m i ^ 2)))

/-- `i` is the first of the frames `0`, …, `n` at which `y` is largest, NaN left out. -/
def FirstPeak (n : ℕ) (y : ℕ → Option ℝ) (i : ℕ) : Prop :=
  i ≤ n ∧ ∃ x, y i = some x ∧ (∀ j ≤ n, ∀ z, y j = some z → z ≤ x) ∧ ∀ j < i, ∀ z, y j = some z → z < x

end Verif.Pipeline
