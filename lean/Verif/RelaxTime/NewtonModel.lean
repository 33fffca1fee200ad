import Verif.RelaxTime.Model
/-!
# Model of the functions fitted in `src/sdanalysis/relaxation.py`, and of the root finding

Real numbers for floats: overflow in `np.exp` is left out.  `scipy.optimize.newton` (scipy 1.2 to 1.4, scalar,
with `fprime` and without `fprime2`) is modelled.
-/

namespace Verif.RelaxTime

/-- `_exponential_decay`, lines 52-59. -/
noncomputable def exponentialDecay (x a b : ℝ) (c : ℝ := 0) : ℝ := a * Real.exp (-b * x) + c

/-- `_ddx_exponential_decay`, lines 63-77. -/
noncomputable def ddxExponentialDecay (x a b _c : ℝ) : ℝ := -b * a * Real.exp (-b * x)

/-- `_d2dx2_exponential_decay`, lines 80-93. -/
noncomputable def d2dx2ExponentialDecay (x a b _c : ℝ) : ℝ := b * b * a * Real.exp (-b * x)

/-- `_msd_function`, lines 38-49. -/
def msdFunction (x m b : ℝ) : ℝ := m * x + b

open Classical in
/-- `scipy.optimize.newton` with `n` iterations left: an exact root is returned at once, a derivative of zero
and the end of the iterations are a RuntimeError, and a step of at most `tol` (`np.isclose` with `rtol=0`)
ends it. -/
noncomputable def newton (f fprime : ℝ → ℝ) (tol : ℝ) : ℕ → ℝ → Except PyErr (Option ℝ)
  | 0, _ => .error .runtimeError
  | n + 1, x =>
    if f x = 0 then .ok (some x)
    else if fprime x = 0 then .error .runtimeError
    else if |x - f x / fprime x - x| ≤ tol then .ok (some (x - f x / fprime x))
    else newton f fprime tol n (x - f x / fprime x)

/-- `find_root` inside `exponential_relaxation`, lines 230-238; `x0` is `zero_est`. -/
noncomputable def findRoot (a b x0 : ℝ) : Except PyErr (Option ℝ) :=
  newton (fun x => exponentialDecay x a b (-(1 / Real.exp 1)))
    (fun x => ddxExponentialDecay x a b (-(1 / Real.exp 1))) (1 / 10000) 20 x0

end Verif.RelaxTime
