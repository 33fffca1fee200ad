import Verif.Py
import Verif.Text
import Mathlib.Data.Rat.Floor
import Mathlib.Algebra.Order.Field.Rat
/-!
# Model of the file names and simulation parameters

Sources: `src/sdanalysis/util.py` (`Variables.from_filename`, `set_filename_vars`,
`parse_directory`) and `src/sdanalysis/params.py` (`SimulationParams`).

Text is a list of characters.  Floating point numbers are exact rationals, so `{:.2f}` rounds the
rational (ties to even, as Python does for the exact value of the double).  Logging calls are
omitted.
-/

namespace Verif.Names

open Verif.Text

/-! ## paths -/

/-- `Path(s).name`: the last component; empty components and `.` are dropped by pathlib
(used at util.py:57, `Path(fname)`).  Simplification: POSIX paths. -/
def pathName (s : List Char) : List Char :=
  (((splitOn '/' s).filter (fun c => decide (c ≠ [] ∧ c ≠ ['.']))).getLast?).getD []

/-- `Path(s).stem` of the name (util.py:58): the name without what follows the last dot, provided
the dot is neither the first nor the last character. -/
def stem (name : List Char) : List Char :=
  let ext := (name.reverse.takeWhile (fun c => decide (c ≠ '.'))).reverse
  if '.' ∈ name ∧ ext ≠ [] ∧ ext.length + 1 < name.length then
    name.take (name.length - ext.length - 1)
  else name

/-- `self.output / fname` (params.py:117) for a relative `fname`. -/
def joinPath (dir fname : List Char) : List Char := dir ++ '/' :: fname

/-! ## `Variables` -/

/-- `class Variables(NamedTuple)` (util.py:33-37). -/
structure Variables where
  temperature : Option (List Char)
  pressure : Option (List Char)
  crystal : Option (List Char)
  iterationId : Option (List Char)
  deriving DecidableEq, Repr

/-- `Variables(None, None, None, None)` and the initial values of the locals
(util.py:66, 68-71). -/
def Variables.empty : Variables := ⟨none, none, none, none⟩

/-- One turn of the loop over the items (util.py:73-81); `item[0]` of an empty item is an
IndexError. -/
def Variables.item (v : Variables) : List Char → Except PyErr Variables
  | [] => .error .indexError
  | 'P' :: r => .ok { v with pressure := some r }
  | 'T' :: r => .ok { v with temperature := some r }
  | 'I' :: 'D' :: r => .ok { v with iterationId := some r }
  | item => .ok { v with crystal := some item }

/-- The loop over the items (util.py:73-81). -/
def Variables.items : Variables → List (List Char) → Except PyErr Variables
  | v, [] => .ok v
  | v, x :: xs =>
    match v.item x with
    | .ok v' => Variables.items v' xs
    | .error e => .error e

/-- The names that may precede the molecule (util.py:61). -/
def prefixes : List (List Char) := ["dump".toList, "trajectory".toList, "thermo".toList]

/-- `del flist[0]` when the first piece is a known prefix (util.py:61-62). -/
def dropPrefix : List (List Char) → List (List Char)
  | [] => []
  | x :: xs => if x ∈ prefixes then xs else x :: xs

/-- `Variables.from_filename` (util.py:39-83), also `get_filename_vars` (util.py:86-104). -/
def fromFilename (fname : List Char) : Except PyErr Variables :=
  let flist := dropPrefix (splitOn '-' (stem (pathName fname)))
  if flist.length < 3 then .ok Variables.empty
  else Variables.items Variables.empty flist

/-! ## `SimulationParams.filename` -/

/-- Decimal text of a natural number (part of `str.format`, params.py:90-116). -/
def showNat (n : Nat) : List Char :=
  if n < 10 then [Char.ofNat (48 + n)] else showNat (n / 10) ++ [Char.ofNat (48 + n % 10)]

/-- Rounding to the nearest integer, ties to even (the rounding of `{:.2f}`, params.py:90-95). -/
def roundHalfEven (x : ℚ) : ℤ :=
  if x - ⌊x⌋ < 1 / 2 then ⌊x⌋
  else if 1 / 2 < x - ⌊x⌋ then ⌊x⌋ + 1
  else if ⌊x⌋ % 2 = 0 then ⌊x⌋ else ⌊x⌋ + 1

/-- `"{:.2f}".format(x)` (params.py:90-95).  Simplification: no infinities, NaN or negative
zero. -/
def fmt2 (x : ℚ) : List Char :=
  let n := (roundHalfEven (100 * |x|)).toNat
  (if x < 0 then ['-'] else []) ++ showNat (n / 100) ++
    ['.', Char.ofNat (48 + n % 100 / 10), Char.ofNat (48 + n % 10)]

/-- The molecule classes (molecules.py:20-171); only the name of the class matters here. -/
inductive MolClass where
  | molecule | disc | sphere | trimer | dimer
  deriving DecidableEq, Repr

/-- `Molecule.__str__` (molecules.py:53-54): the name of the class. -/
def MolClass.str : MolClass → List Char
  | .molecule => "Molecule".toList
  | .disc => "Disc".toList
  | .sphere => "Sphere".toList
  | .trimer => "Trimer".toList
  | .dimer => "Dimer".toList

/-- The attributes of `SimulationParams` (params.py:28-55) that appear in the file name. -/
structure Params where
  temperature : ℚ
  pressure : ℚ
  molecule : MolClass
  momentInertiaScale : Option ℚ
  harmonicForce : Option ℚ
  spaceGroup : Option (List Char)
  output : List Char

/-- The file name without directory: `base_string.format(...)` (params.py:90-116). -/
def Params.baseName (p : Params) (pre : Option (List Char)) : List Char :=
  (match pre with
    | some x => x ++ ['-']
    | none => []) ++
  p.molecule.str ++ "-P".toList ++ fmt2 p.pressure ++ "-T".toList ++ fmt2 p.temperature ++
  (match p.momentInertiaScale with
    | some x => "-I".toList ++ fmt2 x
    | none => []) ++
  (match p.harmonicForce with
    | some x => "-K".toList ++ fmt2 x
    | none => []) ++
  (match p.spaceGroup with
    | some x => '-' :: x
    | none => []) ++
  ".gsd".toList

/-- `SimulationParams.filename` (params.py:88-117). -/
def Params.filename (p : Params) (pre : Option (List Char)) : List Char :=
  joinPath p.output (p.baseName pre)

/-! ## `set_filename_vars` -/

/-- One turn of the loop over `["temperature", "pressure"]` (util.py:110-113): nothing for `None`,
`float` may raise ValueError. -/
def setFloat (float : List Char → Option ℚ) (p : Params) (set : Params → ℚ → Params) :
    Option (List Char) → Params × Option PyErr
  | none => (p, none)
  | some s =>
    match float s with
    | some x => (set p x, none)
    | none => (p, some .valueError)

/-- `set_filename_vars` (util.py:107-116): the parameters afterwards and the exception raised.
`float` is the builtin. -/
def setFilenameVars (float : List Char → Option ℚ) (fname : List Char) (p : Params) :
    Params × Option PyErr :=
  match fromFilename fname with
  | .error e => (p, some e)
  | .ok v =>
    match setFloat float p (fun q x => { q with temperature := x }) v.temperature with
    | (p1, some e) => (p1, some e)
    | (p1, none) =>
      match setFloat float p1 (fun q x => { q with pressure := x }) v.pressure with
      | (p2, some e) => (p2, some e)
      | (p2, none) =>
        match v.crystal with
        | some c => ({ p2 with spaceGroup := some c }, none)
        | none => (p2, none)

/-! ## `parse_directory` -/

/-- The result of `parse_directory`: pressure, temperature, crystal, id (util.py:121). -/
abbrev Tree :=
  Dict (List Char) (Dict (List Char) (Dict (List Char) (Dict (List Char) (List Char))))

/-- `str(x)` of an optional string (util.py:128-129). -/
def strOpt : Option (List Char) → List Char
  | none => "None".toList
  | some s => s

/-- `d.setdefault(k, {})` and then a change of `d[k]` (util.py:130-134). -/
def within {ν : Type} (d : Dict (List Char) (List ν)) (k : List Char) (g : List ν → List ν) :
    Dict (List Char) (List ν) :=
  let d' := Dict.setdefault d k []
  Dict.set d' k (g ((Dict.get? d' k).getD []))

/-- The assignments for one file (util.py:130-134).  The `setdefault(repr_index, {})` of line 133
is overwritten by line 134 and left out. -/
def insertFile (d : Tree) (p t c i f : List Char) : Tree :=
  within d p fun d1 => within d1 t fun d2 => within d2 c fun d3 => Dict.set d3 i f

/-- `assert x` for an optional string (util.py:126-127): `None` and the empty string fail. -/
def assertStr : Option (List Char) → Except PyErr (List Char)
  | none => .error .assertionError
  | some [] => .error .assertionError
  | some s => .ok s

/-- The body of the loop for one file (util.py:124-134). -/
def parseFile (d : Tree) (f : List Char) : Except PyErr Tree :=
  match fromFilename f with
  | .error e => .error e
  | .ok v =>
    match assertStr v.temperature with
    | .error e => .error e
    | .ok t =>
      match assertStr v.pressure with
      | .error e => .error e
      | .ok p => .ok (insertFile d p t (strOpt v.crystal) (strOpt v.iterationId) f)

/-- The loop over the files. -/
def parseFiles : Tree → List (List Char) → Except PyErr Tree
  | d, [] => .ok d
  | d, f :: fs =>
    match parseFile d f with
    | .ok d' => parseFiles d' fs
    | .error e => .error e

/-- `parse_directory` (util.py:119-135); the argument is the list given by `directory.glob`. -/
def parseDirectory (files : List (List Char)) : Except PyErr Tree := parseFiles [] files

/-! ## `temp_context` -/

/-- Attribute values, as far as the property setters distinguish them. -/
inductive Val where
  | none
  | str (s : List Char)
  | path (s : List Char)
  | num (x : ℚ)
  /-- any other object, such as a molecule, by its place in memory -/
  | obj (a : Nat)
  deriving DecidableEq

/-- `Path(value)` (params.py:64, 74, 86): TypeError for what is not a path or a string.
Simplification: normalisation of the path is omitted. -/
def Val.toPath : Val → Except PyErr Val
  | .str s => .ok (.path s)
  | .path s => .ok (.path s)
  | .none => .error .typeError
  | .num _ => .error .typeError
  | .obj _ => .error .typeError

/-- `self.__dict__`. -/
abbrev Attrs := Dict String Val

/-- `setattr(self, key, value)` for a `SimulationParams` (params.py:57-86): the properties
`infile`, `outfile`, `output` store under the underscored name, all others in `__dict__`. -/
def setAttr (d : Attrs) (key : String) (value : Val) : Attrs × Option PyErr :=
  if key = "infile" then
    match value.toPath with
    | .ok v => (Dict.set d "_infile" v, none)
    | .error e => (d, some e)
  else if key = "outfile" ∨ key = "output" then
    if value = .none then (d, none)
    else
      match value.toPath with
      | .ok v => (Dict.set d ("_" ++ key) v, none)
      | .error e => (d, some e)
  else (Dict.set d key value, none)

/-- `delattr(self, key)`: AttributeError for the properties and for absent attributes. -/
def delAttr (d : Attrs) (key : String) : Attrs × Option PyErr :=
  if key ∈ ["infile", "outfile", "output"] ∨ Dict.mem d key = false then
    (d, some .attributeError)
  else (Dict.erase d key, none)

/-- `for key, value in kwargs.items(): setattr(self, key, value)` (params.py:126-127). -/
def setAll (d : Attrs) : List (String × Val) → Attrs × Option PyErr
  | [] => (d, none)
  | (k, v) :: rest =>
    match setAttr d k v with
    | (d', none) => setAll d' rest
    | (d', some e) => (d', some e)

/-- `self.__dict__.update(old)` (params.py:129). -/
def update (d : Attrs) : Attrs → Attrs
  | [] => d
  | (k, v) :: rest => update (Dict.set d k v) rest

/-- What the code inside and around a `with sim_params.temp_context(...)` may do to the object. -/
inductive Stmt where
  | skip
  | seq (a b : Stmt)
  | assign (key : String) (value : Val)
  | delete (key : String)
  | raise (e : PyErr)
  /-- `try: a except: b` -/
  | attempt (a b : Stmt)
  /-- `with sim_params.temp_context(**kwargs): body` -/
  | context (kwargs : List (String × Val)) (body : Stmt)

/-- The effect on `__dict__` and the exception that leaves the statement.  For `context` this is
`temp_context` under `contextlib.contextmanager` (params.py:119-129): the old dictionary is copied
(no instance value is a `property`), the arguments are set, the body runs at the `yield`, and an
exception raised there leaves the generator before the `update`. -/
def exec : Stmt → Attrs → Attrs × Option PyErr
  | .skip, d => (d, none)
  | .seq a b, d =>
    match exec a d with
    | (d', none) => exec b d'
    | (d', some e) => (d', some e)
  | .assign k v, d => setAttr d k v
  | .delete k, d => delAttr d k
  | .raise e, d => (d, some e)
  | .attempt a b, d =>
    match exec a d with
    | (d', none) => (d', none)
    | (d', some _) => exec b d'
  | .context kwargs body, d =>
    match setAll d kwargs with
    | (d1, some e) => (d1, some e)
    | (d1, none) =>
      match exec body d1 with
      | (d2, none) => (update d2 d, none)
      | (d2, some e) => (d2, some e)

end Verif.Names
