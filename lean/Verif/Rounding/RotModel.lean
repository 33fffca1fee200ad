import Verif.Rounding.StoreModel
/-!
# Where single precision enters: orientations

Orientations in gsd files and those computed by `z2quaternion` (util.py:150-157) are float32, and so is
`delta_rotation` (dynamics/_util.py:125, `np.zeros_like(position)`).  rowan computes with float64, which is
exact here.  Unlike in `Verif.Motion`, the tests of rowan allow for tolerances.
-/

namespace Verif.Rounding

open Quaternion Verif.Motion

/-- A quaternion stored as float32. -/
noncomputable def flQ (q : Quat) : Quat :=
  ⟨float32.fl q.re, float32.fl q.imI, float32.fl q.imJ, float32.fl q.imK⟩

/-- The tolerances of rowan: how far the norm may be from 1, and below which cosine there is gimbal
lock. -/
structure Tolerance where
  unit : ℝ
  gimbal : ℝ

/-- `np.clip(x, -1, 1)`. -/
noncomputable def clip1 (x : ℝ) : ℝ := max (-1) (min 1 x)

open Classical in
/-- `rowan.to_euler` of one quaternion, as `Motion.toEuler`, but with the entries of the matrix clipped to
[-1, 1] as rowan does it, and gimbal lock up to a tolerance. -/
noncomputable def toEuler32 (tol : Tolerance) (q : Quat) : V3 :=
  let w := q.re
  let x := q.imI
  let y := q.imJ
  let z := q.imK
  let m00 := clip1 (w ^ 2 + x ^ 2 - y ^ 2 - z ^ 2)
  let m01 := clip1 (2 * (x * y - w * z))
  let m10 := clip1 (2 * (x * y + w * z))
  let m11 := clip1 (w ^ 2 - x ^ 2 + y ^ 2 - z ^ 2)
  let m20 := clip1 (2 * (x * z - w * y))
  let m21 := clip1 (2 * (y * z + w * x))
  let m22 := clip1 (w ^ 2 - x ^ 2 - y ^ 2 + z ^ 2)
  let beta := Real.arcsin (-m20)
  if |Real.cos beta| ≤ tol.gimbal then (arctan2 (-m01) m11, beta, 0)
  else (arctan2 m10 m00, beta, arctan2 m21 m22)

open Classical in
/-- `rowan.to_euler` of an array: a ValueError unless all norms are 1 up to the tolerance. -/
noncomputable def toEulerAll32 (tol : Tolerance) (qs : List Quat) : Except PyErr (List V3) :=
  if ∀ q ∈ qs, |Real.sqrt (normSq q) - 1| ≤ tol.unit then .ok (qs.map (toEuler32 tol)) else .error .valueError

/-- Lines 151-153 of dynamics/_util.py: the rotation between two frames is added to an array of
float32. -/
noncomputable def rotAdd32 (tol : Tolerance) (deltaR : List V3) (prev orientation : List Quat) :
    Except PyErr (List V3) :=
  match bcast (fun q p => q * p⁻¹) orientation prev with
  | .error e => .error e
  | .ok r =>
    match toEulerAll32 tol r with
    | .error e => .error e
    | .ok d => inplace (fun t w => fl3 (t + w)) deltaR d

/-- `TrackedMotion.__init__` and `add` frame by frame (lines 125, 150-153, 156), the rotations only. -/
noncomputable def turnLoop32 (tol : Tolerance) : List V3 → List Quat → List (List Quat) →
    Except PyErr (List V3)
  | deltaR, _, [] => .ok deltaR
  | deltaR, prev, orientation :: rest =>
    match rotAdd32 tol deltaR prev orientation with
    | .error e => .error e
    | .ok dR => turnLoop32 tol dR orientation rest

/-- The rotations after a first frame and then further ones. -/
noncomputable def turn32 (tol : Tolerance) (first : List Quat) (rest : List (List Quat)) :
    Except PyErr (List V3) :=
  turnLoop32 tol (first.map (fun _ => 0)) first rest

end Verif.Rounding
