import Verif.Relax.Spec
import Verif.Process.Model
/-!
# `Relaxations` as a tracker of `process_file`

Of `src/sdanalysis/dynamics/relaxations.py:40-184` everything but the motion tracking: a frame is
given by its time and the displacement and rotation of each molecule since the keyframe.
-/

namespace Verif.Process

open Verif.Relax

variable {K : Type} [Field K] [LinearOrder K]

/-- Time, displacements, rotations. -/
abbrev MFrame (K : Type) := Int × List (Fl K) × List (Fl K)

/-- A `Relaxations` object: `init_time`, `_num_elements`, `mol_relax` (relaxations.py:51, 59, 67). -/
structure Rel (K : Type) where
  init : Int
  num : Nat
  relax : Dict String (MolRelax K)

/-- `Relaxations.__init__`, relaxations.py:41-81. -/
def Rel.new (dist pi : K) (f : MFrame K) : Except PyErr (Rel K) :=
  match setMolRelax f.2.1.length [] (defaults dist pi) with
  | (d, none) => .ok ⟨f.1, f.2.1.length, d⟩
  | (_, some e) => .error e

/-- `Relaxations.set_mol_relax`, relaxations.py:109-130. -/
def Rel.set (defs : List (Def K)) (r : Rel K) : Rel K × Option PyErr :=
  ({ r with relax := (setMolRelax r.num r.relax defs).1 }, (setMolRelax r.num r.relax defs).2)

/-- `Relaxations.add`, relaxations.py:135-162, without the motion tracking. -/
def Rel.add (r : Rel K) (f : MFrame K) : Rel K × Option PyErr :=
  ({ r with relax := (addLoop (f.1 - r.init) f.2.1 f.2.2 r.relax).1 },
    (addLoop (f.1 - r.init) f.2.1 f.2.2 r.relax).2)

/-- `process_file` with these relaxations and nothing in place of the dynamics; `defs` are the
`mol_relaxations` given, if any. -/
def relaxEnv (dist pi : K) (defs : Option (List (Def K))) :
    Env (MFrame K) Unit (Rel K) Unit (String × List Int) Unit where
  numPos f := f.2.1.length
  newDyn _ := .ok ()
  newRelax := Rel.new dist pi
  custom := defs.map Rel.set
  computeAll _ _ := ((), .ok ())
  relaxAdd := Rel.add
  summary r := summary r.relax
  simVars := .ok ()

end Verif.Process
