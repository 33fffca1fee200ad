import Verif.Molecule.Model
/-!
# Model of `repr` of the molecules

Lines cited without a file are lines of `src/sdanalysis/molecules.py`.  `Trimer` has a `__repr__` of
its own, lines 154-158; the other classes have the one that attrs makes for `Molecule` (line 19).  How
Python writes a number, a list of particles and a dictionary of radii are parameters.
-/

namespace Verif.Molecule

open Verif.Motion (V3)

/-- Calls of the constructors: the arguments that are kept or shown. -/
inductive Making where
  | molecule (dimensions : Arg) (particles : List String) (positions : List V3)
      (radii : Dict String Arg) (rigid : Bool) (scale : Arg)
  | disc
  | sphere
  | trimer (radius distance angle scale : Arg)
  | dimer (radius distance scale : Arg)

/-- How Python writes the values: `str` of a number, `repr` of a list of particles and of a dictionary
of radii. -/
structure Shown where
  number : Arg → List Char
  particles : List String → List Char
  radii : Dict String Arg → List Char

/-- A call with keyword arguments, each with the text of its value. -/
structure Call where
  name : List Char
  args : List (List Char × List Char)

/-- One argument as it is written. -/
def argText (a : List Char × List Char) : List Char := a.1 ++ '=' :: a.2

/-- The arguments with commas between them. -/
def argsText : List (List Char × List Char) → List Char
  | [] => []
  | [a] => argText a
  | a :: b :: rest => argText a ++ ',' :: ' ' :: argsText (b :: rest)

/-- The text of a call. -/
def Call.text (c : Call) : List Char := c.name ++ '(' :: (argsText c.args ++ [')'])

/-- `Trimer.__repr__`, lines 154-158. -/
def trimerRepr (sh : Shown) (radius distance angle scale : Arg) : Call where
  name := "Trimer".toList
  args := [("radius".toList, sh.number radius), ("distance".toList, sh.number distance),
    ("angle".toList, sh.number angle), ("moment_inertia_scale".toList, sh.number scale)]

/-- The `__repr__` that attrs makes from lines 28-35: all attributes in order, by the names of the
attributes, but for `positions` (`repr=False`, line 31). -/
def attrsRepr (sh : Shown) (name : String) (dimensions : Arg) (particles : List String)
    (radii : Dict String Arg) (rigid : Bool) (scale : Arg) : Call where
  name := name.toList
  args := [("dimensions".toList, sh.number dimensions), ("particles".toList, sh.particles particles),
    ("_radii".toList, sh.radii radii), ("rigid".toList, if rigid then "True".toList else "False".toList),
    ("moment_inertia_scale".toList, sh.number scale)]

/-- `repr` of the object a call makes: with the `setdefault` of line 38, the radii of `Disc` and
`Sphere` (lines 70 and 79), and the arguments of lines 141-148 and 205-212. -/
noncomputable def Making.repr (sh : Shown) : Making → Call
  | .molecule dimensions particles _ radii rigid scale =>
      attrsRepr sh "Molecule" dimensions particles (Dict.setdefault radii "A" (.float 1)) rigid scale
  | .disc => attrsRepr sh "Disc" (.int 2) ["A"] [("A", .float (1 / 2))] false (.int 1)
  | .sphere => attrsRepr sh "Sphere" (.int 3) ["A"] [("A", .float (1 / 2))] false (.int 1)
  | .trimer radius distance angle scale => trimerRepr sh radius distance angle scale
  | .dimer radius _ scale =>
      attrsRepr sh "Dimer" (.int 2) ["A", "B"] [("A", .float 1), ("B", radius)] true scale

/-- The object a call makes, by the model of the constructors; radii that are not numbers count as 0
there, and the scale is not part of it.  A plain `Molecule` has here what `molecule` has. -/
noncomputable def Making.mol : Making → Except PyErr Mol
  | .molecule _ particles positions radii _ _ =>
      .ok (Verif.Molecule.molecule particles positions (radii.map (fun p => (p.1, p.2.toReal.getD 0))))
  | .disc => .ok Verif.Molecule.disc
  | .sphere => .ok Verif.Molecule.sphere
  | .trimer radius distance angle _ => Verif.Molecule.trimer radius distance angle
  | .dimer radius distance _ => Verif.Molecule.dimer radius distance

/-- The classes by name. -/
def classNamed (name : List Char) : Option Cls :=
  if name = "Molecule".toList then some .molecule
  else if name = "Disc".toList then some .disc
  else if name = "Sphere".toList then some .sphere
  else if name = "Trimer".toList then some .trimer
  else if name = "Dimer".toList then some .dimer
  else none

/-- The names of the arguments of the constructors: attrs drops the underscore of line 33; `Disc` and
`Sphere` take none (lines 67 and 76); lines 95-101 and 183-188. -/
def argNames : Cls → List (List Char)
  | .molecule => ["dimensions".toList, "particles".toList, "positions".toList, "radii".toList,
      "rigid".toList, "moment_inertia_scale".toList]
  | .disc => []
  | .sphere => []
  | .trimer => ["radius".toList, "distance".toList, "angle".toList, "moment_inertia_scale".toList]
  | .dimer => ["radius".toList, "distance".toList, "moment_inertia_scale".toList]

/-- What can go wrong in `eval`: a name that is not defined (as `nan` is not), or an exception of the call. -/
inductive EvalErr where
  | nameError
  | raised (e : PyErr)
  deriving DecidableEq

/-- What Python makes of the text of a value: whether all names in it are defined, and the number it is
(`other` if it is none). -/
structure Reader where
  defined : List Char → Bool
  number : List Char → Arg

/-- The argument of a call by name, or its default. -/
def Call.number (rd : Reader) (c : Call) (name : String) (default : Arg) : Arg :=
  match Dict.get? c.args name.toList with
  | none => default
  | some v => rd.number v

/-- `eval` of a call where the classes are imported: the arguments are evaluated first, and a keyword the
constructor does not know is a TypeError.  Calls of `Molecule` with the right keywords are not modelled
(a TypeError here; they are never what `repr` writes). -/
noncomputable def evalCall (rd : Reader) (c : Call) : Except EvalErr Making :=
  match classNamed c.name with
  | none => .error .nameError
  | some cls =>
    if c.args.all (fun p => rd.defined p.2) = false then .error .nameError
    else if c.args.all (fun p => decide (p.1 ∈ argNames cls)) = false then .error (.raised .typeError)
    else
      match cls with
      | .molecule => .error (.raised .typeError)
      | .disc => .ok .disc
      | .sphere => .ok .sphere
      | .trimer =>
        let made := Making.trimer (c.number rd "radius" (.float 0.637556))
          (c.number rd "distance" (.float 1)) (c.number rd "angle" (.int 120))
          (c.number rd "moment_inertia_scale" (.float 1))
        match made.mol with
        | .error e => .error (.raised e)
        | .ok _ => .ok made
      | .dimer =>
        let made := Making.dimer (c.number rd "radius" (.float 0.637556))
          (c.number rd "distance" (.float 1)) (c.number rd "moment_inertia_scale" (.int 1))
        match made.mol with
        | .error e => .error (.raised e)
        | .ok _ => .ok made

end Verif.Molecule
