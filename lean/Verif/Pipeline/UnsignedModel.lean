import Verif.Pipeline.Model
/-!
# `process_file` with the steps of gsd files

The step of a frame of a gsd file is a number of numpy's type `uint64` (`frame.configuration.step`,
frame.py:187-188, an element of the array of the file), and so are differences of steps.  Importing the
package sets `np.seterr(over="raise")` (relaxations.py:31), by which a difference below zero is a
FloatingPointError.  The models of the other areas take steps as integers.  Steps are below 2^53 here, so
that their remainders in the readers, which numpy takes as floats, are right.
-/

namespace Verif.Pipeline

open Verif.Motion Verif.Dynamics Verif.Gsd

/-- A difference of two numbers of `uint64` under `np.seterr(over="raise")`. -/
def sub64 (a b : ℤ) : Except PyErr ℤ :=
  if a - b < 0 then .error .floatingPointError else .ok (a - b)

/-- `Dynamics.compute_all`, dynamics.py:328-394: the motion is updated first (line 350), then the time
difference is taken (line 356, `compute_time_delta`, lines 213-215). -/
noncomputable def Dyn.computeAll64 (argsort : List ℝ → List ℕ) (d : Dyn) (timestep : ℤ)
    (position : List V3) (orientation : Option (List Quat)) (scattering : Bool) :
    Dyn × Except PyErr (Dict Quantity Val) :=
  match d.add position orientation with
  | (d', some e) => (d', .error e)
  | (d', none) =>
    match sub64 timestep d'.timestep with
    | .error e => (d', .error e)
    | .ok _ => (d', d'.quantities argsort timestep scattering)

/-- `Relaxations.add`, relaxations.py:135-162: the motion first (line 152), then the time difference, for
each relaxation (lines 156-160, `get_timediff`, lines 132-133). -/
noncomputable def Relx.add64 (r : Relx) (timestep : ℤ) (position : List V3)
    (orientation : Option (List Quat)) : Relx × Option PyErr :=
  match r.motion.add position orientation with
  | (m, some e) => ({ r with motion := m }, some e)
  | (m, none) =>
    match r.relax, sub64 timestep r.init with
    | _ :: _, .error e => ({ r with motion := m }, some e)
    | _, _ =>
      let res := Relax.addLoop (timestep - r.init) (m.deltaT.map (fun v => some (norm3 v)))
        (m.deltaR.map (fun v => some (norm3 v))) r.relax
      ({ r with motion := m, relax := res.1 }, res.2)

/-- The trackers as used by `process_file` on the frames of a gsd file. -/
noncomputable def env64 {ν : Type} (a : Args) (vars : Except PyErr ν) :
    Process.Env (GFrame PData) Dyn Relx (Dict Quantity Val) (Dict String ℤ) ν :=
  { env a vars with
    computeAll := fun d f => Dyn.computeAll64 a.argsort d f.timestep f.data.position f.data.orientation
      a.scattering
    relaxAdd := fun r f => r.add64 f.timestep f.data.position f.data.orientation }

/-- `process_file` on a `.gsd` file, _read.py:82-195, as `processGsd`. -/
noncomputable def processGsd64 {ν : Type} (a : Args) (vars : Except PyErr ν) (raws : List (Raw PData))
    (stepsMax linear : Option Int) (interval kmax : Int) (outfile : Bool)
    (file : Cache.File (Process.Rec ℕ (Dict Quantity Val) (Dict String ℤ) ν)) :
    Cache.File (Process.Rec ℕ (Dict Quantity Val) (Dict String ℤ) ν) ×
      Except PyErr (Option (List (Process.Rec ℕ (Dict Quantity Val) (Dict String ℤ) ν))) :=
  Process.processFile (env64 a vars) (some (readGsd raws stepsMax linear interval kmax)) outfile file

end Verif.Pipeline
