import Verif.Gsd.Model
import Verif.Process.Model
/-!
# Model of the command line, `src/sdanalysis/main.py`

Lines cited without a file are lines of `main.py`.  click converts the arguments to Python values
and refuses what is not of the declared type; the model starts from the converted values.  `K` is
the type of floats.  Simplification: `mkdir` (line 148) succeeds.
-/

namespace Verif.Cli

/-- Text. -/
abbrev Str := List Char

/-- The Python values passed around. -/
inductive Val (K : Type) where
  | pyNone
  | int (n : Int)
  | float (x : K)
  | bool (b : Bool)
  | str (s : Str)
  | path (s : Str)
  /-- the generator `yaml.parse(s)` -/
  | events (s : Str)
  deriving DecidableEq

variable {K : Type}

/-- The values of the options of the group `sdanalysis`, lines 63-109; `none` for an option without
default that was not given. -/
structure Globals (K : Type) where
  stepsMax : Option Int := none
  keyframeInterval : Int := 1000000
  linearSteps : Int := 100
  keyframeMax : Int := 500
  molecule : Option Str := none
  waveNumber : K
  output : Option Str := none

/-- A value or `None`. -/
def orNone {α : Type} (mk : α → Val K) : Option α → Val K
  | none => .pyNone
  | some a => mk a

/-- `kwargs` of line 111. -/
def Globals.kwargs (g : Globals K) : Dict String (Val K) :=
  [("steps_max", orNone .int g.stepsMax),
   ("keyframe_interval", .int g.keyframeInterval),
   ("linear_steps", .int g.linearSteps),
   ("keyframe_max", .int g.keyframeMax),
   ("molecule", orNone .str g.molecule),
   ("wave_number", .float g.waveNumber),
   ("output", orNone .str g.output)]

/-- `is not None`. -/
def Val.isSome : Val K → Bool
  | .pyNone => false
  | _ => true

/-- `ctx.obj` of line 114: the options that are not `None`. -/
def Globals.obj (g : Globals K) : Dict String (Val K) := g.kwargs.filter (fun p => p.2.isSome)

/-- The options and arguments of `comp-dynamics`, lines 119-139. -/
structure Command where
  molRelaxations : Option Str := none
  linearDynamics : Bool := false
  scatteringFunction : Bool := false
  infile : Str
  outfile : Str

/-- Lines 150-151. -/
def Command.adjust (c : Command) (obj : Dict String (Val K)) : Dict String (Val K) :=
  if c.linearDynamics then Dict.set obj "linear_steps" .pyNone else obj

/-- The keyword arguments spelled out on lines 160-163, with `relaxations` from lines 152-155. -/
def Command.named (c : Command) : Dict String (Val K) :=
  [("infile", .path c.infile),
   ("mol_relaxations", orNone .events c.molRelaxations),
   ("outfile", .path c.outfile),
   ("scattering_function", .bool c.scatteringFunction)]

/-- `f(**a, **b)`, line 159-165: a keyword given twice is a TypeError. -/
def merge (a b : Dict String (Val K)) : Except PyErr (Dict String (Val K)) :=
  if b.any (fun p => decide (p.1 ∈ a.map Prod.fst)) then .error .typeError else .ok (a ++ b)

/-- The parameters of `process_file`, `read/_read.py:82-92`, with their defaults. -/
def signature : List (String × Option (Val K)) :=
  [("infile", none),
   ("wave_number", none),
   ("steps_max", some .pyNone),
   ("linear_steps", some .pyNone),
   ("keyframe_interval", some (.int 1000000)),
   ("keyframe_max", some (.int 500)),
   ("mol_relaxations", some .pyNone),
   ("outfile", some .pyNone),
   ("scattering_function", some (.bool false))]

/-- The value of one parameter. -/
def bindOne (kw : Dict String (Val K)) (p : String × Option (Val K)) :
    Except PyErr (String × Val K) :=
  match Dict.get? kw p.1 with
  | some v => .ok (p.1, v)
  | none =>
    match p.2 with
    | some d => .ok (p.1, d)
    | none => .error .typeError

/-- The values of several parameters. -/
def bindAll (kw : Dict String (Val K)) :
    List (String × Option (Val K)) → Except PyErr (Dict String (Val K))
  | [] => .ok []
  | p :: ps =>
    match bindOne kw p with
    | .error e => .error e
    | .ok v =>
      match bindAll kw ps with
      | .error e => .error e
      | .ok vs => .ok (v :: vs)

/-- A Python call with keyword arguments: an unknown keyword or a missing argument is a TypeError. -/
def bindCall (params : List (String × Option (Val K))) (kw : Dict String (Val K)) :
    Except PyErr (Dict String (Val K)) :=
  if kw.all (fun p => decide (p.1 ∈ params.map Prod.fst)) then bindAll kw params
  else .error .typeError

/-- `comp_dynamics`, lines 140-165, up to the body of `process_file`: the values of its
parameters. -/
def compDynamics (g : Globals K) (c : Command) : Except PyErr (Dict String (Val K)) :=
  match merge c.named (c.adjust g.obj) with
  | .error e => .error e
  | .ok kw => bindCall signature kw

/-! ### From the parameters to the readers -/

/-- An optional integer. -/
def Val.toOptInt : Val K → Option (Option Int)
  | .pyNone => some none
  | .int n => some (some n)
  | _ => none

/-- An integer. -/
def Val.toInt : Val K → Option Int
  | .int n => some n
  | _ => none

/-- The pairs `process_file` loops over for a `.gsd` file, `read/_read.py:118-125`, given its
parameters (`none` when one is missing or of another type). -/
def gsdPairs {α : Type} (args : Dict String (Val K)) (raws : List (Gsd.Raw α)) :
    Option (List (List Nat × Gsd.GFrame α) × Option PyErr) := do
  let m ← (← Dict.get? args "steps_max").toOptInt
  let l ← (← Dict.get? args "linear_steps").toOptInt
  let k ← (← Dict.get? args "keyframe_interval").toInt
  let n ← (← Dict.get? args "keyframe_max").toInt
  return Gsd.readGsd raws m l k n

/-- `relax.set_mol_relax(mol_relaxations)`, `read/_read.py:143-144` with
`dynamics/relaxations.py:109-112`: the relaxations are dropped (`clear`), and the first event of
`yaml.parse`, the start of the stream, has no attribute `get`. -/
def customOf {R : Type} (clear : R → R) : Val K → Option (R → R × Option PyErr)
  | .events _ => some (fun r => (clear r, some .attributeError))
  | _ => none

/-! ### Logging options -/

/-- The relevant part of the command line before the subcommand. -/
inductive Tok where
  | verbose
  | logFile (f : Str)
  | other
  deriving DecidableEq

/-- Where the log goes. -/
inductive Sink where
  | stream
  | file (f : Str)
  deriving DecidableEq

/-- The root logger. -/
structure Root where
  sink : Option Sink := none
  level : Nat := 30

/-- `logging.basicConfig(filename=…, level=…)`: nothing happens when there is a handler. -/
def basicConfig (f : Option Str) (level : Nat) (r : Root) : Root :=
  match r.sink with
  | some _ => r
  | none =>
    { sink := some (match f with
        | some f => .file f
        | none => .stream),
      level := level }

/-- `_verbosity`, lines 32-36. -/
def verbosity (count : Nat) : Root → Root :=
  basicConfig none (match count with
    | 0 => 30
    | 1 => 20
    | _ => 10)

/-- `_file_logger`, lines 39-41; the level of the module's logger was never set, it is 0. -/
def fileLogger (f : Option Str) : Root → Root := basicConfig f 0

/-- The number of times `-v` is given. -/
def verboseCount (l : List Tok) : Nat := l.count .verbose

/-- The value of `--log-file`: the last one given. -/
def logFileOf : List Tok → Option Str
  | [] => none
  | .logFile f :: l => some ((logFileOf l).getD f)
  | _ :: l => logFileOf l

/-- Does `--log-file` come before `-v`?  click runs the callbacks of eager options in the order
they are first given, those not given last, in the order of declaration. -/
def fileFirst : List Tok → Bool
  | [] => false
  | .logFile _ :: _ => true
  | .verbose :: _ => false
  | .other :: l => fileFirst l

/-- The root logger after the callbacks of lines 46-62. -/
def configure (l : List Tok) : Root :=
  if fileFirst l then verbosity (verboseCount l) (fileLogger (logFileOf l) {})
  else fileLogger (logFileOf l) (verbosity (verboseCount l) {})

end Verif.Cli
