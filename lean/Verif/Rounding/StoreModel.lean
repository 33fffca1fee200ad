import Verif.Rounding.Model
import Verif.Frame.Model
import Verif.Motion.Model
/-!
# Where single precision enters: the lammps reader and `TrackedMotion`

The models of the reader (`Verif.Lammps`) and of `TrackedMotion` (`Verif.Motion`) compute without
rounding.  Here are the same steps with the types of numpy.
-/

namespace Verif.Rounding

open Verif.Motion Verif.Lammps

/-- An entry of a column, `frame[field][mol_index] = float(val)`, _lammps.py:83, 90: the array is one
of float32. -/
noncomputable def storeColumns (cols : Dict (List Char) (List (Option ℝ))) :
    Dict (List Char) (List (Option ℝ)) :=
  cols.map (fun c => (c.1, c.2.map (Option.map float32.fl)))

/-- `parse_lammpstrj`, _lammps.py:42-95.  `float val` is the number written, which Python rounds to a
float (lines 67-69, 90); the differences of the bounds are floats (lines 65-71), the columns float32
(line 83).  No branch of the parser depends on these numbers, so they are rounded at the end here. -/
noncomputable def parseLammps32 (float : List Char → Option ℝ) (src : List Char) :
    List (LFrame ℝ) × Option PyErr :=
  let r := parseLammps (fun w => (float w).map float64.fl) src
  (r.1.map (fun f => { f with box := f.box.map float64.fl, cols := storeColumns f.cols }), r.2)

/-- `LammpsFrame.box`, frame.py:111-118: six numbers of float32. -/
noncomputable def lammpsBox32 (f : LFrame ℝ) : List ℝ := (Frame.lammpsBox f.box).map float32.fl

/-- An operation on the rows of arrays of float32. -/
noncomputable def fl3 (v : V3) : V3 := (float32.fl v.1, float32.fl v.2.1, float32.fl v.2.2)

/-- Line 149 of dynamics/_util.py with positions of float32, so that `delta_translation`, made by
`np.zeros_like(position)` on line 124, is of float32 too.  `wrap` is the method of the freud box, which
computes in float32. -/
noncomputable def transAdd32 (wrap : V3 → V3) (deltaT prevPos position : List V3) :
    Except PyErr (List V3) :=
  match bcast (fun p q => fl3 (p - q)) prevPos position with
  | .ok d => inplace (fun t w => fl3 (t - w)) deltaT (d.map wrap)
  | .error e => .error e

/-- `TrackedMotion.__init__` and `add` frame by frame (lines 123-124, 149, 155), the translations only. -/
noncomputable def trackLoop32 (wrap : V3 → V3) : List V3 → List V3 → List (List V3) →
    Except PyErr (List V3)
  | deltaT, _, [] => .ok deltaT
  | deltaT, prevPos, position :: rest =>
    match transAdd32 wrap deltaT prevPos position with
    | .error e => .error e
    | .ok dT => trackLoop32 wrap dT position rest

/-- The displacements after a first frame and then further ones. -/
noncomputable def track32 (wrap : V3 → V3) (first : List V3) (rest : List (List V3)) :
    Except PyErr (List V3) :=
  trackLoop32 wrap (first.map (fun _ => 0)) first rest

end Verif.Rounding
