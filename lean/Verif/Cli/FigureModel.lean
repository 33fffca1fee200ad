import Verif.Cli.Model
/-!
# Model of the logging options of `sdanalysis figure`, `src/sdanalysis/main.py`

Lines cited without a file are lines of `main.py`.  The name of a logger is the list of its parts,
`sdanalysis.figures.interactive_config` is `["sdanalysis", "figures", "interactive_config"]`.  Only the
root logger has a handler, whose own level is 0; loggers pass records on to it (the defaults of
`logging`).  What bokeh does with its own loggers is not modelled.
-/

namespace Verif.Cli

/-- The loggers of the process: the root, and the levels set for others. -/
structure Logging where
  root : Root
  levels : Dict (List String) Nat

/-- `Logger.getEffectiveLevel` for a name written from its last part: the level of the nearest ancestor
whose level is set (not 0), else that of the root. -/
def effectiveFrom (lg : Logging) : List String → Nat
  | [] => lg.root.level
  | x :: xs =>
    match Dict.get? lg.levels (x :: xs).reverse with
    | some (n + 1) => n + 1
    | _ => effectiveFrom lg xs

/-- `Logger.getEffectiveLevel`. -/
def effective (lg : Logging) (name : List String) : Nat := effectiveFrom lg name.reverse

/-- Where a record of a level goes, if anywhere: `Logger.isEnabledFor`, then the handler of the root. -/
def written (lg : Logging) (name : List String) (level : Nat) : Option Sink :=
  if effective lg name ≤ level then lg.root.sink else none

/-- The levels set when the module is imported, lines 24-27 (also
`figures/interactive_config.py:57-58`). -/
def imported : Dict (List String) Nat := [(["gsd"], 30), (["freud"], 30)]

/-- The logger of the viewer, line 187. -/
def viewerLogger : List String := ["sdanalysis", "figures", "interactive_config"]

/-- `_interactive_verbosity`, lines 185-190. -/
def interactiveVerbosity (value : Nat) (lg : Logging) : Logging :=
  if value = 0 then lg
  else { root := basicConfig none 10 lg.root, levels := Dict.set lg.levels viewerLogger 10 }

/-- The loggers when the body of `figure` begins, lines 193-213: the callbacks of the group run before
those of the command.  `l` are the options of the group, `value` counts the `-v` after `figure`. -/
def figureLogging (l : List Tok) (value : Nat) : Logging :=
  interactiveVerbosity value ⟨configure l, imported⟩

end Verif.Cli
