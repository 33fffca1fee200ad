import Verif.Lammps.Spec
import Verif.Dynamics.EndToEnd
import Verif.Pipeline.LammpsModel
/-!
# Vocabulary for the properties of `process_file` on lammps trajectories
-/

namespace Verif.Pipeline

open Verif.Motion Verif.Dynamics Verif.Lammps

/-- The cell of a frame as the box lines say: a rectangle, seen as two-dimensional. -/
def textCell (f : FrameText ℝ) : Cell :=
  ⟨(f.bound 0).2.1.2 - (f.bound 0).1.2, (f.bound 1).2.1.2 - (f.bound 1).1.2,
    (f.bound 2).2.1.2 - (f.bound 2).1.2, 0, 0, 0, true⟩

/-- The columns `jx`, `jy` and `jz` of the frame have the headings `x`, `y` and `z`. -/
structure Located (f : FrameText ℝ) (jx jy jz : ℕ) : Prop where
  x : f.headings[jx]? = some "x".toList
  y : f.headings[jy]? = some "y".toList
  z : f.headings[jz]? = some "z".toList

/-- The position written for atom `m`. -/
def written (f : FrameText ℝ) (jx jy jz m : ℕ) : V3 :=
  ((f.cell m jx).2, (f.cell m jy).2, (f.cell m jz).2)

/-- The files of lammps: frames `0`, …, `n` of `N` atoms at places `u`, each written in some valid way
with columns `x`, `y`, `z` somewhere and positions wrapped into the cell of the first frame in any way.
Between frames no atom moves half of the cell. -/
structure LammpsRun (float : List Char → Option ℝ) (N n : ℕ) (f : ℕ → FrameText ℝ) (jx jy jz : ℕ → ℕ)
    (u : ℕ → Fin N → V3) : Prop where
  valid : ∀ i ≤ n, (f i).Valid float
  atoms : ∀ i ≤ n, (f i).numAtoms = N
  columns : ∀ i ≤ n, Located (f i) (jx i) (jy i) (jz i)
  box : (textCell (f 0)).Proper
  image : ∀ i ≤ n, ∀ m : Fin N, (textCell (f 0)).Lattice
    ((textCell (f 0)).flat (written (f i) (jx i) (jy i) (jz i) m - u i m))
  step : ∀ i < n, ∀ m, (textCell (f 0)).WithinHalf ((textCell (f 0)).flat (u (i + 1) m - u i m))

/-- The text of the frames `0`, …, `n`. -/
def runText (f : ℕ → FrameText ℝ) (n : ℕ) : List Char :=
  ((List.range (n + 1)).map f).flatMap FrameText.write

end Verif.Pipeline
