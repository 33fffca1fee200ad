import Verif.Cli.Model
import Verif.Names.Model
import Verif.Pipeline.LammpsModel
import Verif.Pipeline.ChainModel
/-!
# The command `comp-dynamics` from the command line to the tables

`src/sdanalysis/main.py:118-165` with `process_file`, `src/sdanalysis/read/_read.py:82-195`: the options
and the file name of `Verif.Cli` and `Verif.Names`, the readers and the trackers of `Verif.Pipeline`.
-/

namespace Verif.Pipeline

open Verif.Motion Verif.Dynamics Verif.Relax Verif.Gsd

/-- `Path(s).suffix` (_read.py:118, 126): what follows the last dot of the name, with the dot, provided
that the dot is neither the first nor the last character. -/
def suffix (s : List Char) : List Char :=
  let name := Names.pathName s
  let ext := (name.reverse.takeWhile (fun c => decide (c ≠ '.'))).reverse
  if '.' ∈ name ∧ ext ≠ [] ∧ ext.length + 1 < name.length then '.' :: ext else []

/-- What the command uses besides the code of the package: `np.argsort`, `calculate_wave_number` (it is
called only without wave number), Python's `float(…)` of a text, and what an entry of an array never written
reads as. -/
structure Lib where
  argsort : List ℝ → List ℕ
  calcWave : Box → List V3 → Except PyErr ℝ
  float : List Char → Option ℝ
  junk : ℝ

/-- `np.nan` or `float(x)`, _read.py:160-167. -/
def nameVar (float : List Char → Option ℝ) : Option (List Char) → Except PyErr (Option ℝ)
  | none => .ok none
  | some s =>
    match float s with
    | some x => .ok (some x)
    | none => .error .valueError

/-- Temperature and pressure of the rows, in this order, _read.py:160-167 and 180-187. -/
def nameVars (float : List Char → Option ℝ) (v : Names.Variables) : Except PyErr Vars :=
  match nameVar float v.temperature with
  | .error e => .error e
  | .ok t =>
    match nameVar float v.pressure with
    | .error e => .error e
    | .ok p => .ok (t, p)

/-- The wave number, for the trackers. -/
def waveArg : Option (Cli.Val ℝ) → Option ℝ
  | some (.float x) => some x
  | _ => none

/-- The flag, for the trackers. -/
def scatteringArg : Option (Cli.Val ℝ) → Bool
  | some (.bool b) => b
  | _ => false

/-- The arguments of the trackers from those of `process_file`, _read.py:135-153. -/
noncomputable def argsOf (L : Lib) (args : Dict String (Cli.Val ℝ)) : Args :=
  ⟨L.argsort, L.calcWave, trimerMol, waveArg (Dict.get? args "wave_number"),
    scatteringArg (Dict.get? args "scattering_function"), none⟩

/-- The trackers with the custom relaxations, _read.py:143-144; `set_mol_relax` begins with an empty
dictionary, relaxations.py:110. -/
noncomputable def commandEnv (L : Lib) (args : Dict String (Cli.Val ℝ)) (v : Names.Variables) :
    Process.Env (GFrame PData) Dyn Relx (Dict Quantity Val) (Dict String ℤ) Vars :=
  { env (argsOf L args) (nameVars L.float v) with
    custom := (Dict.get? args "mol_relaxations").bind (Cli.customOf (fun r => { r with relax := [] })) }

/-- The frames of the input file, _read.py:118-127.  `raws` are the frames of the file if it is a gsd
file, `text` its contents if it is a lammps file. -/
noncomputable def commandPairs (L : Lib) (args : Dict String (Cli.Val ℝ)) (infile : List Char)
    (raws : List (Raw PData)) (text : List Char) : Option (List (List ℕ × GFrame PData) × Option PyErr) :=
  if suffix infile = ".gsd".toList then Cli.gsdPairs args raws
  else if suffix infile = ".lammpstrj".toList then
    ((Dict.get? args "steps_max").bind Cli.Val.toOptInt).map (fun m =>
      lammpsPairs L.junk (Lammps.readLammps L.float text m).2 (Lammps.readLammps L.float text m).1)
  else none

/-- `process_file`, _read.py:82-195, with the values of its parameters: `get_filename_vars` (line 111) comes
first. -/
noncomputable def processArgs (L : Lib) (args : Dict String (Cli.Val ℝ)) (infile : List Char)
    (raws : List (Raw PData)) (text : List Char) (file : Cache.File FRec) :
    Cache.File FRec × Except PyErr (Option (List FRec)) :=
  match Names.fromFilename infile with
  | .error e => (file, .error e)
  | .ok v => Process.processFile (commandEnv L args v) (commandPairs L args infile raws text) true file

/-- `sdanalysis … comp-dynamics … infile outfile`, main.py:110-165: what is in the output file afterwards,
and how the command ends. -/
noncomputable def compDynamicsRun (L : Lib) (g : Cli.Globals ℝ) (c : Cli.Command) (raws : List (Raw PData))
    (text : List Char) (file : Cache.File FRec) : Cache.File FRec × Except PyErr (Option (List FRec)) :=
  match Cli.compDynamics g c with
  | .error e => (file, .error e)
  | .ok args => processArgs L args c.infile raws text file

end Verif.Pipeline
