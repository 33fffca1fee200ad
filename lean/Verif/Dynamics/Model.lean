import Mathlib.Data.List.Dedup
import Mathlib.Algebra.BigOperators.Group.List.Basic
import Mathlib.Algebra.Order.Floor.Ring
import Mathlib.Data.Rat.Floor
import Verif.Motion.Model
/-!
# Model of `Dynamics`, `src/sdanalysis/dynamics/dynamics.py`

Floats are real numbers, and NaN (`none`) where it can arise.  Lines cited without a file are lines
of `dynamics/dynamics.py`.  `np.seterr(divide="raise", invalid="raise")` (line 21) makes a division
by zero a FloatingPointError.
-/

namespace Verif.Dynamics

open Verif.Motion Quaternion

/-- What `Dynamics` uses of a `Molecule`. -/
structure Mol where
  dimensions : ℕ
  positions : List V3

/-- `Dynamics`, with the attributes set in `__init__`, lines 92-112.  `waveVector` is missing when
there is no wave number. -/
structure Dyn where
  molVector : Option (List V3)
  motion : Tracked
  timestep : ℤ
  numParticles : ℕ
  waveNumber : Option ℝ
  waveVector : Option (List (ℝ × ℝ))

/-- The wave vectors, lines 107-112; the same as `create_wave_vector`, dynamics/_util.py:25-39. -/
noncomputable def createWaveVector (k : ℝ) (resolution : ℕ) : List (ℝ × ℝ) :=
  (List.range resolution).map (fun (j : ℕ) =>
    let angle : ℝ := (j : ℝ) * (2 * Real.pi / resolution)
    (Real.cos angle * k, Real.sin angle * k))

/-- `Dynamics.__init__`, lines 67-112. -/
noncomputable def Dyn.new (timestep : ℤ) (box : List ℝ) (position : List V3)
    (orientation : Option (List Quat)) (molecule : Option Mol) (waveNumber : Option ℝ)
    (resolution : ℕ := 360) : Except PyErr Dyn :=
  if position.length = 0 then .error .runtimeError
  else
    let is2d := match molecule with
      | none => true
      | some m => decide (m.dimensions = 2)
    match createFreudBox box is2d with
    | .error e => .error e
    | .ok b =>
      match Tracked.new b position orientation with
      | .error e => .error e
      | .ok motion =>
        .ok ⟨molecule.map (·.positions), motion, timestep, position.length, waveNumber,
          waveNumber.map (fun k => createWaveVector k resolution)⟩

/-- `Dynamics.add`, line 160, and `add_frame`, line 177. -/
noncomputable def Dyn.add (d : Dyn) (position : List V3) (orientation : Option (List Quat)) :
    Dyn × Option PyErr :=
  let r := d.motion.add position orientation
  ({ d with motion := r.1 }, r.2)

/-- `np.linalg.norm` of one row. -/
noncomputable def norm3 (v : V3) : ℝ := Real.sqrt (v.1 ^ 2 + v.2.1 ^ 2 + v.2.2 ^ 2)

/-- `np.square(row).sum()`. -/
def sq3 (v : V3) : ℝ := v.1 ^ 2 + v.2.1 ^ 2 + v.2.2 ^ 2

/-- `ndarray.mean()`; the arrays here are never empty. -/
noncomputable def mean (l : List ℝ) : ℝ := l.sum / l.length

/-- `compute_displacement`, line 181. -/
noncomputable def Dyn.displacement (d : Dyn) : List ℝ := d.motion.deltaT.map norm3

/-- `compute_displacement2`, line 185. -/
def Dyn.displacement2 (d : Dyn) : List ℝ := d.motion.deltaT.map sq3

/-- `compute_msd`, line 189. -/
noncomputable def Dyn.msd (d : Dyn) : ℝ := mean d.displacement2

/-- `compute_mfd`, line 193. -/
noncomputable def Dyn.mfd (d : Dyn) : ℝ := mean (d.displacement2.map (· ^ 2))

open Classical in
/-- A numpy division, with "invalid" (0/0) ignored or raised; division of another number by zero
is always raised. -/
noncomputable def fdiv (ignoreInvalid : Bool) (a b : ℝ) : Except PyErr (Option ℝ) :=
  if b ≠ 0 then .ok (some (a / b))
  else if a ≠ 0 then .error .floatingPointError
  else if ignoreInvalid then .ok none
  else .error .floatingPointError

/-- `a / b - 1` as in lines 204-211, 273-280 and 296-303: tried once raising, and when that gives a
FloatingPointError again with "invalid" ignored.  `nan_to_num` acts on a copy. -/
noncomputable def ratioMinusOne (a b : ℝ) : Except PyErr (Option ℝ) :=
  match fdiv false a b with
  | .ok r => .ok (r.map (· - 1))
  | .error _ =>
    match fdiv true a b with
    | .ok r => .ok (r.map (· - 1))
    | .error e => .error e

/-- `compute_alpha`, lines 195-211. -/
noncomputable def Dyn.alpha (d : Dyn) : Except PyErr (Option ℝ) :=
  let disp2 := d.displacement2
  ratioMinusOne (mean (disp2.map (· ^ 2))) (2 * (mean disp2) ^ 2)

/-- `compute_time_delta`, line 215. -/
def Dyn.timeDelta (d : Dyn) (timestep : ℤ) : ℤ := timestep - d.timestep

/-- `compute_rotation`, line 219. -/
noncomputable def Dyn.rotation (d : Dyn) : List ℝ := d.motion.deltaR.map norm3

/-- `compute_rotation2`, line 223. -/
def Dyn.rotation2 (d : Dyn) : List ℝ := d.motion.deltaR.map sq3

/-- `compute_mean_rotation`, line 227. -/
noncomputable def Dyn.meanRotation (d : Dyn) : ℝ := mean d.rotation

/-- `compute_msr`, line 231. -/
noncomputable def Dyn.msr (d : Dyn) : ℝ := mean d.rotation2

/-- `compute_isf`, line 235: the mean over wave vectors and molecules.  Without wave number the
attribute is missing. -/
noncomputable def Dyn.isf (d : Dyn) : Except PyErr ℝ :=
  match d.waveVector with
  | none => .error .attributeError
  | some ws =>
    .ok (mean (ws.flatMap (fun w => d.motion.deltaT.map (fun v =>
      Real.cos (w.1 * v.1 + w.2 * v.2.1)))))

/-- `compute_rotational_relax1`, line 247. -/
noncomputable def Dyn.rot1 (d : Dyn) : ℝ := mean (d.rotation.map Real.cos)

/-- `compute_rotational_relax2`, line 259. -/
noncomputable def Dyn.rot2 (d : Dyn) : ℝ :=
  mean (d.rotation.map (fun t => 2 * Real.cos t ^ 2 - 1))

/-- `compute_alpha_rot`, lines 261-280. -/
noncomputable def Dyn.alphaRot (d : Dyn) : Except PyErr (Option ℝ) :=
  let theta2 := d.rotation2
  ratioMinusOne (mean (theta2.map (· ^ 2))) (3 * (mean theta2) ^ 2)

/-- `compute_gamma`, lines 282-303. -/
noncomputable def Dyn.gamma (d : Dyn) : Except PyErr (Option ℝ) :=
  let theta2 := d.rotation2
  let disp2 := d.displacement2
  ratioMinusOne (mean (List.zipWith (· * ·) disp2 theta2)) (mean disp2 * mean theta2)

open Classical in
/-- `distance`, lines 399-403: `π / (2 k)`, a ZeroDivisionError for `k = 0`. -/
noncomputable def Dyn.distance (d : Dyn) : Except PyErr (Option ℝ) :=
  match d.waveNumber with
  | none => .ok none
  | some k => if k = 0 then .error .zeroDivisionError else .ok (some (Real.pi / (2 * k)))

/-- A vector as a quaternion. -/
def vecQ (v : V3) : Quat := ⟨0, v.1, v.2.1, v.2.2⟩

/-- The vector part of a quaternion. -/
def qVec (q : Quat) : V3 := (q.imI, q.imJ, q.imK)

/-- `rowan.rotate` of one vector by one quaternion. -/
noncomputable def rotate (q : Quat) (v : V3) : V3 := qVec (q * (vecQ v * star q))

/-- Rotation about z, y or x by an angle, as a quaternion. -/
noncomputable def qz (a : ℝ) : Quat := ⟨Real.cos (a / 2), 0, 0, Real.sin (a / 2)⟩
/-- see `qz` -/
noncomputable def qy (a : ℝ) : Quat := ⟨Real.cos (a / 2), 0, Real.sin (a / 2), 0⟩
/-- see `qz` -/
noncomputable def qx (a : ℝ) : Quat := ⟨Real.cos (a / 2), Real.sin (a / 2), 0, 0⟩

/-- `rowan.from_euler(alpha, beta, gamma)` in the default intrinsic zyx convention. -/
noncomputable def fromEuler (alpha beta gamma : ℝ) : Quat := qz alpha * qy beta * qx gamma

open Classical in
/-- `rotate_vectors(orientation, pos)`, util.py:142-143: all orientations applied to one vector;
rowan asks for unit quaternions. -/
noncomputable def rotateVectors (orientation : List Quat) (pos : V3) : Except PyErr (List V3) :=
  if ∀ q ∈ orientation, normSq q = 1 then .ok (orientation.map (fun q => rotate q pos))
  else .error .valueError

/-- `np.concatenate([rotate_vectors(orientation, pos) for pos in vectors])`; nothing to concatenate
is a ValueError. -/
noncomputable def rotateAll (orientation : List Quat) (vectors : List V3) :
    Except PyErr (List V3) :=
  if vectors.length = 0 then .error .valueError
  else match vectors.mapM (rotateVectors orientation) with
    | .ok ls => .ok ls.flatten
    | .error e => .error e

open Classical in
/-- `molecule2particles`, dynamics/_util.py:42-54.  Orientations that are all zero are replaced by
the identity (`np.allclose` has a tolerance, this has not).  `np.repeat` repeats each row. -/
noncomputable def molecule2particles (position : List V3) (orientation : List Quat)
    (molVector : List V3) : Except PyErr (List V3) :=
  let o := if ∀ q ∈ orientation, q = 0 then orientation.map (fun _ => (1 : Quat)) else orientation
  match rotateAll o molVector with
  | .error e => .error e
  | .ok rotated =>
    bcast (· + ·) rotated (position.flatMap (fun p => List.replicate molVector.length p))

/-- `orientation2positions`, util.py:170-175, for a molecule with the given number of particles and
positions.  `np.tile` repeats the whole array. -/
noncomputable def orientation2positions (numParticles : ℕ) (molPositions : List V3)
    (position : List V3) (orientation : List Quat) : Except PyErr (List V3) :=
  match rotateAll orientation molPositions with
  | .error e => .error e
  | .ok rotated => bcast (· + ·) (List.replicate numParticles position).flatten rotated

open Classical in
/-- The mean of an array of booleans. -/
noncomputable def fraction (l : List ℝ) (dist : ℝ) : ℝ :=
  ((l.filter (fun x => decide (x < dist))).length : ℝ) / l.length

/-- `zero_quaternion`, util.py:27-30. -/
def zeroQuaternion (n : ℕ) : List Quat := List.replicate n 1

/-- `compute_struct_relax`, lines 305-326.  Without molecule `mol_vector.astype` is an
AttributeError. -/
noncomputable def Dyn.structRelax (d : Dyn) : Except PyErr ℝ :=
  match d.distance with
  | .error e => .error e
  | .ok none => .error .valueError
  | .ok (some dist) =>
    match d.molVector with
    | none => .error .attributeError
    | some mv =>
      let quatRot := d.motion.deltaR.map (fun v => fromEuler v.2.2 v.2.1 v.1)
      match molecule2particles d.motion.deltaT quatRot mv with
      | .error e => .error e
      | .ok final =>
        match molecule2particles (d.motion.deltaT.map (fun _ => 0)) (zeroQuaternion d.numParticles)
            mv with
        | .error e => .error e
        | .ok init =>
          match bcast (fun p q => norm3 (p - q)) final init with
          | .error e => .error e
          | .ok l => .ok (fraction l dist)

open Classical in
/-- `structural_relax`, lines 410-428, on arrays that may contain NaN.  Comparing with NaN gives
False, or a FloatingPointError in numpy builds that signal it (`signals`), which is caught. -/
noncomputable def structuralRelax (signals : Bool) (displacement : List (Option ℝ)) (dist : ℝ) :
    Option ℝ :=
  if signals && displacement.any Option.isNone then none
  else some (((displacement.filter (fun x => match x with
    | some x => decide (x < dist)
    | none => false)).length : ℝ) / displacement.length)

/-- The slice `l[-k:]` for `k ≥ 0`; `l[-0:]` is the whole list. -/
def lastN {α : Type} (l : List α) (k : ℕ) : List α := if k = 0 then l else l.drop (l.length - k)

/-- `mobile_overlap`, lines 431-445, for a fraction that is not negative.  `argsort` is
`np.argsort`. -/
noncomputable def mobileOverlap (argsort : List ℝ → List ℕ) (displacement rotation : List ℝ)
    (fraction : ℚ := 1 / 10) : Except PyErr ℝ :=
  let num : ℕ := (⌊(displacement.length : ℚ) * fraction⌋).toNat
  let transOrder := lastN (argsort displacement) num
  let rotOrder := lastN (argsort (rotation.map abs)) num
  let common := (transOrder.dedup.filter (fun i => decide (i ∈ rotOrder))).length
  if num = 0 then .error .zeroDivisionError else .ok ((common : ℝ) / num)

/-- A value in the dictionary of `compute_all`: an integer, or a float (`none` is NaN). -/
inductive Val where
  | int (i : ℤ)
  | num (x : Option ℝ)

/-- The names of the quantities, lines 50-64. -/
inductive Quantity where
  | time | mean_displacement | msd | mfd | alpha | scattering_function | com_struct
  | mean_rotation | msr | rot1 | rot2 | alpha_rot | gamma | overlap | struct
  deriving DecidableEq

/-- `_all_quantities`, lines 49-65. -/
def allQuantities : List Quantity :=
  [.time, .mean_displacement, .msd, .mfd, .alpha, .scattering_function, .com_struct,
   .mean_rotation, .msr, .rot1, .rot2, .alpha_rot, .gamma, .overlap, .struct]

/-- Lines 352-394: the dictionary filled from the tracked motion. -/
noncomputable def Dyn.quantities (argsort : List ℝ → List ℕ) (d : Dyn) (timestep : ℤ)
    (scattering : Bool) : Except PyErr (Dict Quantity Val) := do
  let q : Dict Quantity Val := allQuantities.map (fun k => (k, .num none))
  let q := Dict.set q .time (.int (d.timeDelta timestep))
  let q := Dict.set q .mean_displacement (.num (some (mean d.displacement)))
  let q := Dict.set q .msd (.num (some d.msd))
  let q := Dict.set q .mfd (.num (some d.mfd))
  let alpha ← d.alpha
  let q := Dict.set q .alpha (.num alpha)
  let q ← if scattering && d.waveNumber.isSome then
      (do let isf ← d.isf
          pure (Dict.set q .scattering_function (.num (some isf))))
    else pure q
  let distance ← d.distance
  let q := match distance with
    | some dist => Dict.set q .com_struct
        (.num (structuralRelax false (d.displacement.map some) dist))
    | none => q
  let q := Dict.set q .mean_rotation (.num (some d.meanRotation))
  let q := Dict.set q .msr (.num (some d.msr))
  let q := Dict.set q .rot1 (.num (some d.rot1))
  let q := Dict.set q .rot2 (.num (some d.rot2))
  let alphaRot ← d.alphaRot
  let q := Dict.set q .alpha_rot (.num alphaRot)
  let gamma ← d.gamma
  let q := Dict.set q .gamma (.num gamma)
  let overlap ← mobileOverlap argsort d.displacement d.rotation
  let q := Dict.set q .overlap (.num (some overlap))
  if distance.isSome && d.molVector.isSome && d.motion.prevOri.isSome then
    (do let s ← d.structRelax
        pure (Dict.set q .struct (.num (some s))))
  else pure q

/-- `compute_all`, lines 328-394: the object afterwards, and the dictionary or the exception. -/
noncomputable def Dyn.computeAll (argsort : List ℝ → List ℕ) (d : Dyn) (timestep : ℤ)
    (position : List V3) (orientation : Option (List Quat)) (scattering : Bool := false) :
    Dyn × Except PyErr (Dict Quantity Val) :=
  match d.add position orientation with
  | (d', some e) => (d', .error e)
  | (d', none) => (d', d'.quantities argsort timestep scattering)

/-- `__len__`, lines 396-397. -/
def Dyn.len (d : Dyn) : ℕ := d.numParticles

/-- `get_molid`, lines 405-407. -/
def Dyn.getMolid (d : Dyn) : List ℕ := List.range d.numParticles

end Verif.Dynamics
