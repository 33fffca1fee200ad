import Mathlib.Algebra.BigOperators.Group.List.Basic
import Verif.RelaxTime.NewtonModel
/-!
# Vocabulary for the fit of a decay
-/

namespace Verif.RelaxTime

/-- The squared error of the decay `a exp(-b t)` at the points. -/
noncomputable def decayError (points : List (ℝ × ℝ)) (a b : ℝ) : ℝ :=
  (points.map (fun p => (a * Real.exp (-b * p.1) - p.2) ^ 2)).sum

/-- A least squares solver for decays: whatever it returns for points without weights, no decay has a smaller
squared error; and for points without any error the covariance is zero. -/
def DecayLeastSquares (fit : ℝ × ℝ → List (ℝ × ℝ) → Option (List ℝ) → Except PyErr Fit) : Prop :=
  ∀ p0 points f, fit p0 points none = .ok f →
    (∀ a b, decayError points f.p0 f.p1 ≤ decayError points a b) ∧
    (decayError points f.p0 f.p1 = 0 → f.var0 = 0 ∧ f.var1 = 0)

/-- The squared error of the function with the two parameters at the points. -/
def squaredError (function : ℝ → ℝ → ℝ → ℝ) (points : List (ℝ × ℝ)) (a b : ℝ) : ℝ :=
  (points.map (fun p => (function p.1 a b - p.2) ^ 2)).sum

/-- What is assumed of `scipy.optimize.curve_fit(function, xdata, ydata, p0)`, for a function with two parameters
and no weights, when it returns: no parameters have a smaller squared error, and for points without any error the
covariance is zero. -/
def FitsBest (curveFit : (ℝ → ℝ → ℝ → ℝ) → Option (ℝ × ℝ) → List (ℝ × ℝ) → Except PyErr Fit) : Prop :=
  ∀ function p0 points f, curveFit function p0 points = .ok f →
    (∀ a b, squaredError function points f.p0 f.p1 ≤ squaredError function points a b) ∧
    (squaredError function points f.p0 f.p1 = 0 → f.var0 = 0 ∧ f.var1 = 0)

end Verif.RelaxTime
