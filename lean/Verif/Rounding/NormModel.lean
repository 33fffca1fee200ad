import Verif.Rounding.MomentModel
/-!
# Where single precision enters: lengths of displacements, `src/sdanalysis/dynamics/dynamics.py`
-/

namespace Verif.Rounding

open Verif.Motion Verif.Dynamics

variable (sum : List ℝ → ℝ)

/-- `np.linalg.norm(row)`, lines 181 and 219: the square root, correctly rounded, of the sum of squares, all
in the type of the array (numpy/linalg/linalg.py, `sqrt(add.reduce((x.conj() * x).real))`). -/
noncomputable def norm32 (v : V3) : ℝ := float32.fl (Real.sqrt (sq32 sum v))

/-- `np.linalg.norm(self.delta_translation, axis=1).mean()`, lines 357-359, and `compute_mean_rotation`,
lines 225-227. -/
noncomputable def meanNorm32 (delta : List V3) : ℝ := mean32 sum (delta.map (norm32 sum))

open Classical in
/-- `structural_relax(self.compute_displacement(), dist)`, lines 410-428 called on lines 369-372.  Before a
comparison with an array of float32 numpy (before 2.0) converts a Python float to float32; the mean of booleans
is a float64. -/
noncomputable def comStruct32 (dist : ℝ) (delta : List V3) : ℝ :=
  float64.fl ((((delta.map (norm32 sum)).filter (fun x => decide (x < float32.fl dist))).length : ℝ) /
    delta.length)

/-- `compute_rotational_relax1`, lines 237-247; `cos32` is `np.cos` of a float32. -/
noncomputable def rot1F (cos32 : ℝ → ℝ) (delta : List V3) : ℝ :=
  mean32 sum (delta.map (fun v => cos32 (norm32 sum v)))

/-- `2 * np.square(c) - 1` for an array of float32. -/
noncomputable def double32 (c : ℝ) : ℝ := float32.fl (float32.fl (2 * square32 c) - 1)

/-- `compute_rotational_relax2`, lines 249-259. -/
noncomputable def rot2F (cos32 : ℝ → ℝ) (delta : List V3) : ℝ :=
  mean32 sum (delta.map (fun v => double32 (cos32 (norm32 sum v))))

end Verif.Rounding
