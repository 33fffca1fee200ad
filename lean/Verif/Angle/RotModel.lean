import Verif.Angle.Model
import Verif.Order.Model
/-!
# Model of `quaternion_rotation` and `quaternion_angle`, `src/sdanalysis/util.py`

Simplification: floats are real numbers.  The arrays have one quaternion in each row.
-/

namespace Verif.Angle

open Verif.Motion (Quat bcast)
open Verif.Order (qnorm rowanLog intrinsicDistance)

/-- `quaternion_rotation`, util.py:138-139; numpy broadcasts a single row. -/
noncomputable def quaternionRotation (initial final : List Quat) : Except PyErr (List ℝ) :=
  bcast intrinsicDistance initial final

/-- `quaternion_angle`, util.py:146-147; `rowan.geometry.angle` is twice the length of the logarithm. -/
noncomputable def quaternionAngle (quaternion : List Quat) : List ℝ :=
  quaternion.map (fun q => 2 * qnorm (rowanLog q))

end Verif.Angle
