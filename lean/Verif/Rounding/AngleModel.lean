import Verif.Angle.Model
import Verif.Rounding.RotModel
/-!
# Where single precision enters: `z2quaternion` and `quaternion2z`, `src/sdanalysis/util.py`

As `Verif.Angle`, with the conversions to float32; rowan computes with float64, which is exact here.
-/

namespace Verif.Rounding

open Verif.Motion Verif.Dynamics

/-- `z2quaternion`, util.py:150-157. -/
noncomputable def z2quaternion32 (theta : List ℝ) : List Quat := theta.map (fun t => flQ (fromEuler t 0 0))

/-- `quaternion2z`, util.py:160-167. -/
noncomputable def quaternion2z32 (tol : Tolerance) (q : List Quat) : Except PyErr (List ℝ) :=
  match toEulerAll32 tol q with
  | .error e => .error e
  | .ok l => .ok (l.map (fun v => float32.fl v.1))

end Verif.Rounding
