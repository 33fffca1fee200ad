import Verif.Names.Model
/-!
# Construction and attributes of `SimulationParams`, `src/sdanalysis/params.py:22-82`
-/

namespace Verif.Names

/-- The names of the properties, whose values are stored under the underscored name; attrs also drops the
underscore in the arguments of `__init__`. -/
def fileParams : List String := ["infile", "outfile", "output"]

/-- The name in `__dict__`. -/
def stored (key : String) : String := if key ∈ fileParams then "_" ++ key else key

/-- `_to_path`, params.py:22-25. -/
def toPathOpt (v : Val) : Except PyErr Val := if v = .none then .ok .none else v.toPath

/-- The fields in order with their defaults, params.py:32-53.  `mol` stands for the object `Trimer()`
of line 36. -/
def fields (mol : Val) : List (String × Val) :=
  [("temperature", .num (2 / 5)), ("pressure", .num (27 / 2)), ("molecule", mol),
   ("moment_inertia_scale", .none), ("harmonic_force", .none), ("wave_number", .none),
   ("space_group", .none), ("num_steps", .none), ("linear_steps", .num 100), ("max_gen", .num 500),
   ("gen_steps", .num 20000), ("output_interval", .num 10000), ("infile", .none), ("outfile", .none),
   ("output", .none)]

/-- `self._x = converter(x)` for the fields in order, as `__init__` of attrs does. -/
def initLoop (kwargs : List (String × Val)) : List (String × Val) → Attrs → Except PyErr Attrs
  | [], d => .ok d
  | (k, dflt) :: rest, d =>
    let v := (Dict.get? kwargs k).getD dflt
    if k ∈ fileParams then
      match toPathOpt v with
      | .error e => .error e
      | .ok p => initLoop kwargs rest (Dict.set d (stored k) p)
    else initLoop kwargs rest (Dict.set d (stored k) v)

/-- `SimulationParams(**kwargs)`: TypeError for an unknown argument. -/
def construct (mol : Val) (kwargs : List (String × Val)) : Except PyErr Attrs :=
  if kwargs.all (fun p => (fields mol).any (fun q => decide (q.1 = p.1))) then
    initLoop kwargs (fields mol) []
  else .error .typeError

/-- `self.key`: the properties of params.py:55-57, 64-66 and 74-78, else `__dict__`.  `cwd` is
`Path.cwd()`. -/
def getAttr (cwd : Val) (d : Attrs) (key : String) : Except PyErr Val :=
  match Dict.get? d (stored key) with
  | none => .error .attributeError
  | some v => if key = "output" ∧ v = .none then .ok cwd else .ok v

end Verif.Names
