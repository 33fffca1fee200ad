import Verif.Py
/-!
# The dashboard of `src/sdanalysis/figures/thermodynamics.py`

The callbacks of the widgets as a state machine.  Assumed of bokeh: assigning to `value` of a widget
stores the value and, when it differs from the old one, runs the callback before the assignment returns;
exceptions of the callback come out of the assignment, the value stays.  The layout is left out apart from
which plots there are.
-/

namespace Verif.Thermo

/-- A data frame: its columns in order.  `V` are the arrays of values. -/
abbrev DF (V : Type) := Dict String V

/-- The directories: which files `Path(new).glob("thermo*")` lists and what `read_file` gives for them. -/
structure Disk (V : Type) where
  glob : String → List String
  read : String → String → Except PyErr (DF V)

/-- The widgets `directory`, `fname` and `factors`, the global `dataframe`, and the data of the two
`ColumnDataSource`s, lines 77-85. -/
structure St (V : Type) where
  dir : String
  file : String
  fileOptions : List String
  factor : String
  factorOptions : List String
  df : DF V
  defaults : Dict String V
  data : Dict String V

variable {V : Type}

/-- An attribute of the data frame that is a column: AttributeError when there is none. -/
def attr (df : DF V) (name : String) : Except PyErr V :=
  match Dict.get? df name with
  | none => .error .attributeError
  | some v => .ok v

/-- The dictionary of lines 64-70. -/
def defaultData (df : DF V) : Except PyErr (Dict String V) :=
  match attr df "timestep", attr df "temperature", attr df "pressure", attr df "potential_energy",
    attr df "kinetic_energy" with
  | .ok x, .ok t, .ok p, .ok u, .ok k => .ok [("x", x), ("temperature", t), ("pressure", p),
      ("potential_energy", u), ("kinetic_energy", k)]
  | _, _, _, _, _ => .error .attributeError

/-- `update_datacolumns`, lines 62-74. -/
def updateData (s : St V) : St V × Option PyErr :=
  match defaultData s.df with
  | .error e => (s, some e)
  | .ok d =>
    let s1 := { s with defaults := d }
    match attr s.df "timestep" with
    | .error e => (s1, some e)
    | .ok x =>
      match Dict.get? s.df s.factor with
      | none => (s1, some .keyError)
      | some y => ({ s1 with data := [("x", x), ("y", y)] }, none)

/-- `factors.value = new`, with `update_datacolumns` as callback (line 85). -/
def setFactor (s : St V) (new : String) : St V × Option PyErr :=
  if new = s.factor then (s, none) else updateData { s with factor := new }

/-- `update_factors`, lines 56-59. -/
def updateFactors (s : St V) : St V × Option PyErr :=
  let s1 := { s with factorOptions := s.df.map Prod.fst }
  match s1.factorOptions[2]? with
  | none => (s1, some .indexError)
  | some k => setFactor s1 k

/-- `update_file`, lines 46-53. -/
def updateFile (disk : Disk V) (s : St V) (new : String) : St V × Option PyErr :=
  match disk.read s.dir new with
  | .error e => (s, some e)
  | .ok df =>
    match updateFactors { s with df := df } with
    | (s', some e) => (s', some e)
    | (s', none) => updateData s'

/-- `fname.value = new`, with `update_file` as callback (line 83). -/
def setFile (disk : Disk V) (s : St V) (new : String) : St V × Option PyErr :=
  if new = s.file then (s, none) else updateFile disk { s with file := new } new

/-- `update_file_list`, lines 33-43.  The `except IndexError` also covers the assignment to
`fname.value`. -/
def updateFileList (disk : Disk V) (s : St V) (new : String) : St V × Option PyErr :=
  let s1 := { s with fileOptions := disk.glob new }
  match s1.fileOptions with
  | [] => (s1, none)
  | first :: _ =>
    match setFile disk s1 (if s1.file ∈ s1.fileOptions then s1.file else first) with
    | (s', some .indexError) => (s', none)
    | r => r

/-- `directory.value = new`, with `update_file_list` as callback (line 81). -/
def setDir (disk : Disk V) (s : St V) (new : String) : St V × Option PyErr :=
  if new = s.dir then (s, none) else updateFileList disk { s with dir := new } new

/-- Lines 77-85, before the first `update_file_list`. -/
def initial : St V := ⟨".", "", [], "", [], [], [], []⟩

/-- Lines 77-86. -/
def start (disk : Disk V) : St V × Option PyErr := updateFileList disk initial "."

/-- The columns that get a plot in the first tab, lines 89-110: those known at the start. -/
def plots (s : St V) : List String := (s.defaults.map Prod.fst).erase "x"

/-- What the user does. -/
inductive Event where
  | dir (new : String)
  | file (new : String)
  | factor (new : String)

/-- The effect; an exception in a callback is logged by the server, which goes on. -/
def step (disk : Disk V) (s : St V) : Event → St V × Option PyErr
  | .dir new => setDir disk s new
  | .file new => setFile disk s new
  | .factor new => setFactor s new

/-- A sequence of events. -/
def run (disk : Disk V) (s : St V) (es : List Event) : St V :=
  es.foldl (fun s e => (step disk s e).1) s

end Verif.Thermo
