import Verif.Pipeline.ChainSpec
import Verif.RelaxTime.Spec
/-!
# Vocabulary for C128
-/

namespace Verif.Pipeline

open Verif.Motion Verif.Dynamics

/-- The true course of the mean squared displacement, in two dimensions, and of the mean squared rotation, in
one. -/
def Course.Spread {N : ℕ} (C : Course N) (q : Quantity) (d : ℕ) (x : ℕ → ℝ) : Prop :=
  (q = .msd ∧ d = 2 ∧ ∀ i, x i = avg (fun m => len2 (C.c.flat (C.u i m - C.u 0 m)))) ∨
  (q = .msr ∧ d = 1 ∧ ∀ i, x i = avg (fun m => (C.θ i m - C.θ 0 m) ^ 2))

/-- `x` grows as the squared displacement of something which diffuses in `d` dimensions with the constant `D`, in
the part of the course which `diffusion_constant` looks at. -/
def Diffuses (n d : ℕ) (τ x : ℕ → ℝ) (D : ℝ) : Prop :=
  ∃ b, ∀ i ≤ n, 2 < x i → x i < 50 → x i = 2 * d * D * τ i + b

/-- At least three of the frames `0`, …, `n` are in the part that is looked at. -/
def ThreeInside (n : ℕ) (x : ℕ → ℝ) : Prop :=
  ∃ i j k, i < j ∧ j < k ∧ k ≤ n ∧ ∀ l ∈ [i, j, k], 2 < x l ∧ x l < 50

/-- The solver finds the least squares, and returns something for three points or more on a straight line. -/
structure Solves (fit : List (ℝ × ℝ) → Except PyErr RelaxTime.Fit) : Prop where
  least : RelaxTime.LeastSquares fit
  returns : ∀ l m b, 3 ≤ l.length → (∀ p ∈ l, p.2 = m * p.1 + b) → ∃ f, fit l = .ok f

end Verif.Pipeline
