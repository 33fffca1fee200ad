import Verif.Relax.Model
import Verif.Process.Model
import Verif.Gsd.Model
import Verif.Dynamics.Model
import Verif.Molecule.Model
/-!
# `process_file` with its readers and trackers put together

The `Relaxations` class with its motion tracking (`src/sdanalysis/dynamics/relaxations.py:40-184`),
and `process_file` (`src/sdanalysis/read/_read.py:82-195`) with `Dynamics`, `Relaxations` and the gsd
readers of the other areas in place of the parameters of `Verif.Process`.
-/

namespace Verif.Pipeline

open Verif.Motion Verif.Dynamics Verif.Relax Verif.Gsd

/-- What `process_file` uses of a frame besides its timestep: `frame.box`, `frame.position` and
`frame.orientation`, _read.py:129-153 and relaxations.py:100-107. -/
structure PData where
  box : List ℝ
  position : List V3
  orientation : Option (List Quat)

/-- A `Relaxations` object: `init_time`, `motion`, `_num_elements`, `wave_number`, `mol_relax`. -/
structure Relx where
  init : ℤ
  motion : Tracked
  num : ℕ
  waveNumber : ℝ
  relax : Dict String (MolRelax ℝ)

/-- Lines 60-61: the wave number given, or one calculated from the configuration.  `calcWave` is
`calculate_wave_number`, dynamics/_util.py:66-86. -/
def waveOf (calcWave : Box → List V3 → Except PyErr ℝ) (b : Box) (position : List V3) :
    Option ℝ → Except PyErr ℝ
  | some k => .ok k
  | none => calcWave b position

open Classical in
/-- `Relaxations.__init__`, relaxations.py:41-81.  `np.pi / (2 * wave_number)` (line 85) is a division of Python
floats: zero is a ZeroDivisionError. -/
noncomputable def Relx.new (calcWave : Box → List V3 → Except PyErr ℝ) (timestep : ℤ)
    (box : List ℝ) (position : List V3) (orientation : Option (List Quat))
    (molecule : Option Dynamics.Mol) (waveNumber : Option ℝ) : Except PyErr Relx :=
  let is2D := match molecule with
    | none => false
    | some m => decide (m.dimensions = 2)
  match createFreudBox box is2D with
  | .error e => .error e
  | .ok b =>
    match Tracked.new b position orientation with
    | .error e => .error e
    | .ok motion =>
      match waveOf calcWave b position waveNumber with
      | .error e => .error e
      | .ok k =>
        if k = 0 then .error .zeroDivisionError
        else match setMolRelax position.length [] (defaults (Real.pi / (2 * k)) Real.pi) with
          | (_, some e) => .error e
          | (d, none) => .ok ⟨timestep, motion, position.length, k, d⟩

/-- `Relaxations.set_mol_relax`, relaxations.py:109-130. -/
noncomputable def Relx.set (defs : List (Def ℝ)) (r : Relx) : Relx × Option PyErr :=
  ({ r with relax := (setMolRelax r.num r.relax defs).1 }, (setMolRelax r.num r.relax defs).2)

/-- `Relaxations.add`, relaxations.py:135-162. -/
noncomputable def Relx.add (r : Relx) (timestep : ℤ) (position : List V3)
    (orientation : Option (List Quat)) : Relx × Option PyErr :=
  match r.motion.add position orientation with
  | (m, some e) => ({ r with motion := m }, some e)
  | (m, none) =>
    let res := addLoop (timestep - r.init) (m.deltaT.map (fun v => some (norm3 v)))
      (m.deltaR.map (fun v => some (norm3 v))) r.relax
    ({ r with motion := m, relax := res.1 }, res.2)

/-- `Relaxations.summary`, relaxations.py:181-184, by rows: a data frame with one column per
relaxation has a row for each molecule, and no rows when there are no columns. -/
def Relx.summary (r : Relx) : List (Dict String ℤ) :=
  match r.relax with
  | [] => []
  | _ :: _ => (List.range r.num).map (fun m =>
      (Relax.summary r.relax).map (fun c => (c.1, c.2.getD m 0)))

/-- The arguments of `process_file` that concern the trackers, _read.py:82-92, with the molecule
and the library functions they use: `np.argsort` and `calculate_wave_number`. -/
structure Args where
  argsort : List ℝ → List ℕ
  calcWave : Box → List V3 → Except PyErr ℝ
  mol : Dynamics.Mol
  wave : Option ℝ
  scattering : Bool
  relaxations : Option (List (Def ℝ))

/-- The trackers as used by `process_file`, _read.py:134-168; `vars` are temperature and pressure. -/
noncomputable def env {ν : Type} (a : Args) (vars : Except PyErr ν) :
    Process.Env (GFrame PData) Dyn Relx (Dict Quantity Val) (Dict String ℤ) ν where
  numPos f := f.data.position.length
  newDyn f := Dyn.new f.timestep f.data.box f.data.position f.data.orientation (some a.mol) a.wave
  newRelax f := Relx.new a.calcWave f.timestep f.data.box f.data.position f.data.orientation
    (some a.mol) a.wave
  custom := a.relaxations.map Relx.set
  computeAll d f := d.computeAll a.argsort f.timestep f.data.position f.data.orientation
    a.scattering
  relaxAdd r f := r.add f.timestep f.data.position f.data.orientation
  summary := Relx.summary
  simVars := vars

/-- The molecule `Trimer()` of _read.py:138-139, as `Dynamics` sees it. -/
noncomputable def trimerMol : Dynamics.Mol :=
  match Molecule.trimer (.float (637556 / 1000000)) (.float 1) (.int 120) with
  | .ok m => ⟨m.dimensions.toNat, m.positions⟩
  | .error _ => ⟨2, []⟩

/-- `process_file` on a `.gsd` file, _read.py:82-195, with an output file or without.  `raws` are the
frames of the file, readable or not. -/
noncomputable def processGsd {ν : Type} (a : Args) (vars : Except PyErr ν) (raws : List (Raw PData))
    (stepsMax linear : Option Int) (interval kmax : Int) (outfile : Bool)
    (file : Cache.File (Process.Rec ℕ (Dict Quantity Val) (Dict String ℤ) ν)) :
    Cache.File (Process.Rec ℕ (Dict Quantity Val) (Dict String ℤ) ν) ×
      Except PyErr (Option (List (Process.Rec ℕ (Dict Quantity Val) (Dict String ℤ) ν))) :=
  Process.processFile (env a vars) (some (readGsd raws stepsMax linear interval kmax)) outfile file

end Verif.Pipeline
