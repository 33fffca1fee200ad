import Verif.Frame.Model
import Verif.Pipeline.Model
/-!
# `process_file` on a `.lammpstrj` file

`src/sdanalysis/read/_read.py:125-129` with the reader of `Verif.Lammps` and the view of its frames
of `Verif.Frame`.
-/

namespace Verif.Pipeline

open Verif.Motion Verif.Dynamics Verif.Relax Verif.Gsd

/-- The frames of `read_lammps_trajectory` as `process_file` sees them through `LammpsFrame`,
_read.py:128-153 and frame.py:75-125.  The reader ends with `e`; a frame without a column `x`, `y` or
`z` raises at `frame.position` (line 129), which ends the loop.  `junk` is what an entry never written
reads as. -/
noncomputable def lammpsPairs (junk : ℝ) (e : Option PyErr) :
    List (List ℕ × Lammps.LFrame ℝ) → List (List ℕ × GFrame PData) × Option PyErr
  | [] => ([], e)
  | p :: ps =>
    match Frame.lammpsFrame junk p.2 with
    | .error err => ([], some err)
    | .ok v => ((p.1, ⟨v.timestep, ⟨v.box, v.position, some v.orientation⟩⟩) ::
        (lammpsPairs junk e ps).1, (lammpsPairs junk e ps).2)

/-- `process_file` on a `.lammpstrj` file with contents `src`, _read.py:82-195; `float` is Python's
`float(…)` of a text. -/
noncomputable def processLammps {ν : Type} (a : Args) (vars : Except PyErr ν)
    (float : List Char → Option ℝ) (junk : ℝ) (src : List Char) (stepsMax : Option Int) (outfile : Bool)
    (file : Cache.File (Process.Rec ℕ (Dict Quantity Val) (Dict String ℤ) ν)) :
    Cache.File (Process.Rec ℕ (Dict Quantity Val) (Dict String ℤ) ν) ×
      Except PyErr (Option (List (Process.Rec ℕ (Dict Quantity Val) (Dict String ℤ) ν))) :=
  Process.processFile (env a vars)
    (some (lammpsPairs junk (Lammps.readLammps float src stepsMax).2
      (Lammps.readLammps float src stepsMax).1)) outfile file

end Verif.Pipeline
