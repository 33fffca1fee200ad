import Verif.Dynamics.Model
import Verif.Rounding.Model
/-!
# Where single precision enters: the averages of `dynamics/dynamics.py`

`delta_translation` and `delta_rotation` have the type of the positions, float32 (`np.zeros_like(position)`,
dynamics/_util.py:124-125), and so have their squares, sums and averages.
-/

namespace Verif.Rounding

open Verif.Motion Verif.Dynamics

/-- A sum with rounding after every addition, in some order and grouping; numpy adds in blocks.
Adding to a zero at the start, as numpy does for short arrays, changes nothing. -/
inductive SumTree (F : Format) : List ℝ → ℝ → Prop
  | one (x : ℝ) : SumTree F [x] x
  | add {l l' : List ℝ} {a b : ℝ} : SumTree F l a → SumTree F l' b → SumTree F (l ++ l') (F.fl (a + b))
  | perm {l l' : List ℝ} {a : ℝ} : l.Perm l' → SumTree F l a → SumTree F l' a

/-- What is assumed of `np.sum` for arrays of float32. -/
def IsSum (sum : List ℝ → ℝ) : Prop := ∀ l, l ≠ [] → SumTree float32 l (sum l)

/-- `np.square` of a float32. -/
noncomputable def square32 (x : ℝ) : ℝ := float32.fl (x * x)

variable (sum : List ℝ → ℝ)

/-- `np.square(row).sum()`, lines 185 and 223. -/
noncomputable def sq32 (v : V3) : ℝ := sum [square32 v.1, square32 v.2.1, square32 v.2.2]

/-- `ndarray.mean()` of float32: numpy divides the sum by a Python int, in float64, and converts the result
back (numpy/core/_methods.py, `ret.dtype.type(ret / rcount)`). -/
noncomputable def mean32 (l : List ℝ) : ℝ := float32.fl (float64.fl (sum l / l.length))

/-- `compute_msd`, lines 183-189. -/
noncomputable def msd32 (deltaT : List V3) : ℝ := mean32 sum (deltaT.map (sq32 sum))

/-- `compute_mfd`, lines 191-193. -/
noncomputable def mfd32 (deltaT : List V3) : ℝ :=
  mean32 sum ((deltaT.map (sq32 sum)).map square32)

/-- A division of floats of a type. -/
noncomputable def fdivF (F : Format) (ignoreInvalid : Bool) (a b : ℝ) : Except PyErr (Option ℝ) :=
  (fdiv ignoreInvalid a b).map (Option.map F.fl)

/-- `a / b - 1` as in `Dynamics.ratioMinusOne`; the division in the type of `a / b`, the subtraction of the
Python int in float64. -/
noncomputable def ratioMinusOneF (F : Format) (a b : ℝ) : Except PyErr (Option ℝ) :=
  match fdivF F false a b with
  | .ok r => .ok (r.map (fun x => float64.fl (x - 1)))
  | .error _ =>
    match fdivF F true a b with
    | .ok r => .ok (r.map (fun x => float64.fl (x - 1)))
    | .error e => .error e

/-- `compute_alpha` (`c = 2`, lines 195-211) and `compute_alpha_rot` (`c = 3`, lines 261-280): a scalar
of float32 times a Python int is a float64. -/
noncomputable def alpha32 (c : ℝ) (delta : List V3) : Except PyErr (Option ℝ) :=
  let disp2 := delta.map (sq32 sum)
  ratioMinusOneF float64 (mean32 sum (disp2.map square32))
    (float64.fl (c * square32 (mean32 sum disp2)))

/-- `compute_gamma`, lines 282-303. -/
noncomputable def gamma32 (deltaT deltaR : List V3) : Except PyErr (Option ℝ) :=
  let theta2 := deltaR.map (sq32 sum)
  let disp2 := deltaT.map (sq32 sum)
  ratioMinusOneF float32 (mean32 sum (List.zipWith (fun a b => float32.fl (a * b)) disp2 theta2))
    (float32.fl (mean32 sum disp2 * mean32 sum theta2))

end Verif.Rounding
