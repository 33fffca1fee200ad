import Verif.Dynamics.Model
/-!
# Model of `z2quaternion` and `quaternion2z`, `src/sdanalysis/util.py`

Simplification: the conversions to float32 are ignored.
-/

namespace Verif.Angle

open Verif.Motion (Quat toEulerAll)
open Verif.Dynamics (fromEuler)

/-- `z2quaternion`, util.py:150-157. -/
noncomputable def z2quaternion (theta : List ℝ) : List Quat := theta.map (fun t => fromEuler t 0 0)

/-- `quaternion2z`, util.py:160-167; rowan refuses quaternions that are not of unit length. -/
noncomputable def quaternion2z (q : List Quat) : Except PyErr (List ℝ) :=
  match toEulerAll q with
  | .error e => .error e
  | .ok l => .ok (l.map (fun v => v.1))

end Verif.Angle
