import Verif.Dynamics.Model
/-!
# `molecule2particles` with the array it writes to

`molecule2particles` (dynamics/_util.py:42-54) compares the orientations with zero up to the
tolerance of `np.allclose` and writes the first column of the array it was handed.  `Dynamics.Model`
leaves both out; here they are kept, together with the tolerance with which rowan asks for unit
quaternions.
-/

namespace Verif.Dynamics

open Verif.Motion Quaternion

/-- The argument `orientation`, which the code tells apart by `isinstance`, dynamics/_util.py:45. -/
inductive OrientArg where
  | tuple : OrientArg
  | array : List Quat → OrientArg

/-- `np.isclose(x, 0.0)`: the default tolerances are `atol = 1e-8` and `rtol = 1e-5`, and the latter
is relative to the second argument. -/
def closeZero (x : ℝ) : Prop := |x| ≤ 1 / 10 ^ 8 + 1 / 10 ^ 5 * |(0 : ℝ)|

/-- `np.allclose(orientation, 0.0)`, dynamics/_util.py:47; true of an array without rows. -/
def allCloseZero (o : List Quat) : Prop :=
  ∀ q ∈ o, closeZero q.re ∧ closeZero q.imI ∧ closeZero q.imJ ∧ closeZero q.imK

/-- A row of the array after `orientation[:, 0] = 1.0`, dynamics/_util.py:48. -/
def withFirst (q : Quat) : Quat := ⟨1, q.imI, q.imJ, q.imK⟩

/-- `orientation[:, 0] = 1.0`, dynamics/_util.py:48. -/
def setFirst (o : List Quat) : List Quat := o.map withFirst

open Classical in
/-- `rotate_vectors(orientation, pos)`, util.py:142-143; rowan raises a ValueError unless
`np.allclose(norm(q), 1.0)`. -/
noncomputable def rotateVectorsTol (orientation : List Quat) (pos : V3) : Except PyErr (List V3) :=
  if ∀ q ∈ orientation, |Real.sqrt (normSq q) - 1| ≤ 1 / 10 ^ 8 + 1 / 10 ^ 5 * |(1 : ℝ)| then
    .ok (orientation.map (fun q => rotate q pos))
  else .error .valueError

/-- `np.concatenate([rotate_vectors(orientation, pos) for pos in vectors])`,
dynamics/_util.py:49-51. -/
noncomputable def rotateAllTol (orientation : List Quat) (vectors : List V3) :
    Except PyErr (List V3) :=
  if vectors.length = 0 then .error .valueError
  else match vectors.mapM (rotateVectorsTol orientation) with
    | .ok ls => .ok ls.flatten
    | .error e => .error e

open Classical in
/-- `molecule2particles`, dynamics/_util.py:42-54: what it returns, and the argument `orientation`
after the call.  `mol_vector.astype(np.float32)` is the identity here. -/
noncomputable def molecule2particlesRun (position : List V3) (orientation : OrientArg)
    (molVector : List V3) : Except PyErr (List V3) × OrientArg :=
  match orientation with
  | .tuple => (.error .valueError, .tuple)
  | .array o =>
    let o' := if allCloseZero o then setFirst o else o
    (match rotateAllTol o' molVector with
      | .error e => .error e
      | .ok rotated =>
        bcast (· + ·) rotated (position.flatMap (fun p => List.replicate molVector.length p)),
      .array o')

end Verif.Dynamics
