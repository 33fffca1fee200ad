import Mathlib.Algebra.BigOperators.Group.List.Basic
import Verif.RelaxTime.Model
/-!
# Vocabulary for the properties of the relaxation times
-/

namespace Verif.RelaxTime

/-- The value is beyond the threshold: below it for a decay, above it otherwise; NaN never is. -/
def Beyond (threshold : ℝ) (decay : Bool) : Option ℝ → Prop
  | none => False
  | some x => if decay then x < threshold else threshold < x

/-- `i` is the first position with a value beyond the threshold. -/
def FirstBeyond (threshold : ℝ) (decay : Bool) (value : List (Option ℝ)) (i : ℕ) : Prop :=
  (∃ v, value[i]? = some v ∧ Beyond threshold decay v) ∧
    ∀ j < i, ∀ v, value[j]? = some v → ¬ Beyond threshold decay v

/-- `i` is the first position of the largest value, which is `x`; NaN is left out. -/
def FirstMax (value : List (Option ℝ)) (i : ℕ) (x : ℝ) : Prop :=
  value[i]? = some (some x) ∧ (∀ y, some y ∈ value → y ≤ x) ∧
    ∀ j < i, ∀ y, value[j]? = some (some y) → y < x

/-- The squared error of the line `m t + b` at the points. -/
def sse (points : List (ℝ × ℝ)) (m b : ℝ) : ℝ :=
  (points.map (fun p => (m * p.1 + b - p.2) ^ 2)).sum

/-- A least squares solver for lines: whatever it returns, no line has a smaller squared error. -/
def LeastSquares (fit : List (ℝ × ℝ) → Except PyErr Fit) : Prop :=
  ∀ points f, fit points = .ok f → ∀ m b, sse points f.p0 f.p1 ≤ sse points m b

end Verif.RelaxTime
