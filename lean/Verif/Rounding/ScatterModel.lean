import Mathlib.Analysis.SpecialFunctions.Trigonometric.Basic
import Verif.Rounding.MomentModel
/-!
# The scattering function with the rounding of numpy

Source: /repo/src/sdanalysis/dynamics/dynamics.py:105-112 and 233-235.  The wave vectors are float64, the
displacements float32; `np.dot` turns the displacements into float64, which changes no value, and everything
after it is float64.
-/

namespace Verif.Rounding

open Verif.Motion

/-- `2 * np.pi`, line 108: the float64 nearest to π, doubled. -/
noncomputable def twoPi64 : ℝ := float64.fl (2 * float64.fl Real.pi)

/-- Angle `j` of `np.linspace(0, 2 * np.pi, num=angular_resolution, endpoint=False)`, lines 107-109: numpy
divides the length by the number and multiplies the count with this step; adding the start, zero, changes
nothing. -/
noncomputable def angle64 (res j : ℕ) : ℝ := float64.fl (j * float64.fl (twoPi64 / res))

variable (cos64 sin64 : ℝ → ℝ)

/-- The wave vectors, lines 107-112.  Simplification: `np.cos` and `np.sin` are parameters. -/
noncomputable def waveVectors64 (k : ℝ) (res : ℕ) : List (ℝ × ℝ) :=
  (List.range res).map (fun j =>
    (float64.fl (cos64 (angle64 res j) * k), float64.fl (sin64 (angle64 res j) * k)))

/-- What is assumed of an entry of `np.dot` of float64 matrices with two terms in the sum: both products and
the sum are rounded, or one product goes into the sum unrounded (a fused operation of the processor). -/
def IsDot (dot : ℝ × ℝ → ℝ × ℝ → ℝ) : Prop :=
  ∀ w v, dot w v = float64.fl (float64.fl (w.1 * v.1) + float64.fl (w.2 * v.2)) ∨
    dot w v = float64.fl (w.1 * v.1 + float64.fl (w.2 * v.2)) ∨
    dot w v = float64.fl (float64.fl (w.1 * v.1) + w.2 * v.2)

/-- What is assumed of `np.sum` for arrays of float64. -/
def IsSum64 (sum : List ℝ → ℝ) : Prop := ∀ l, l ≠ [] → SumTree float64 l (sum l)

/-- `Dynamics.compute_isf`, lines 233-235: the cosines of all products, one row for each wave vector and one
column for each molecule, and `.mean()` of them all, which divides the sum by their number. -/
noncomputable def isf64 (dot : ℝ × ℝ → ℝ × ℝ → ℝ) (sum : List ℝ → ℝ) (k : ℝ) (res : ℕ) (ds : List V3) : ℝ :=
  let cosines := (waveVectors64 cos64 sin64 k res).flatMap (fun w =>
    ds.map (fun d => cos64 (dot w (d.1, d.2.1))))
  float64.fl (sum cosines / cosines.length)

end Verif.Rounding
