import Verif.Pipeline.CommandModel
/-!
# A session: `comp-dynamics` and `comp-relaxations` again and again on the same file

`src/sdanalysis/main.py:118-182`.
-/

namespace Verif.Pipeline

open Verif.Gsd Verif.Tables

/-- An output file: the tables `dynamics` and `molecular_relaxations` that `process_file` writes, and the
table `relaxations` that `compute_relaxations` writes, if there is one.  (The rows of the latter are of
another kind, so it is a field of its own; that `process_file` leaves it alone is C28.) -/
structure Output where
  tables : Cache.File FRec
  relaxations : Option (List Summary)

/-- `sdanalysis comp-relaxations infile`, main.py:168-182 with `compute_relaxations`,
relaxation.py:428-499: everything is read before the last line, which replaces the table. -/
noncomputable def compRelaxationsRun (signals : Bool) (fit : List (ℝ × ℝ) → Except PyErr RelaxTime.Fit)
    (hmean : List ℝ → Except PyErr ℝ) (f : Output) : Output × Option PyErr :=
  match compRelaxations signals fit hmean f.tables with
  | .error e => (f, some e)
  | .ok res => ({ f with relaxations := some res }, none)

/-- A command on the file: `comp-dynamics`, main.py:118-165, with its options and the contents of its
input, or `comp-relaxations`, main.py:168-182. -/
inductive Run where
  | dynamics (g : Cli.Globals ℝ) (c : Cli.Command) (raws : List (Raw PData)) (text : List Char)
  | relaxations

/-- The file after a command, and the exception it ended with. -/
noncomputable def Run.exec (L : Lib) (signals : Bool) (fit : List (ℝ × ℝ) → Except PyErr RelaxTime.Fit)
    (hmean : List ℝ → Except PyErr ℝ) (f : Output) : Run → Output × Option PyErr
  | .dynamics g c raws text =>
    ({ f with tables := (compDynamicsRun L g c raws text f.tables).1 },
      match (compDynamicsRun L g c raws text f.tables).2 with
      | .error e => some e
      | .ok _ => none)
  | .relaxations => compRelaxationsRun signals fit hmean f

/-- The file after several commands, each a process of its own: one that fails does not stop the next. -/
noncomputable def session (L : Lib) (signals : Bool) (fit : List (ℝ × ℝ) → Except PyErr RelaxTime.Fit)
    (hmean : List ℝ → Except PyErr ℝ) (f : Output) (runs : List Run) : Output :=
  runs.foldl (fun f r => (r.exec L signals fit hmean f).1) f

end Verif.Pipeline
