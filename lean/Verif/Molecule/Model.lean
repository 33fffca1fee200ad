import Mathlib.Analysis.SpecialFunctions.Trigonometric.Basic
import Verif.Motion.Model
/-!
# Model of `src/sdanalysis/molecules.py`

Lines cited without a file are lines of `molecules.py`.  Floats are real numbers or NaN; positions
are computed for numbers only.
-/

namespace Verif.Molecule

open Verif.Motion (V3)

/-- The classes. -/
inductive Cls where
  | molecule | disc | sphere | trimer | dimer
  deriving DecidableEq, Repr

/-- `issubclass(c, d)`. -/
def Cls.sub (c d : Cls) : Bool := c == d || d == .molecule

/-- A Python number given as argument; `other` is anything that is neither `float` nor `int`. -/
inductive Arg where
  | int (n : Int)
  | float (x : ℝ)
  | nan
  | other

/-- An attribute that an object may lack. -/
inductive Attr where
  | missing
  | nan
  | val (x : ℝ)

/-- The attribute holding an argument. -/
def Arg.attr : Arg → Attr
  | .int n => .val n
  | .float x => .val x
  | .nan => .nan
  | .other => .missing

/-- A `Molecule` object: the attributes of lines 28-35 and those set by the subclasses. -/
structure Mol where
  cls : Cls
  dimensions : Int
  particles : List String
  positions : List V3
  radii : Dict String ℝ
  rigid : Bool
  radius : Attr
  distance : Attr
  angle : Attr

/-- `np.mean(positions, axis=0)`, line 46; not for an empty array, where the mean is 0/0 and raises. -/
noncomputable def centre (ps : List V3) : V3 :=
  ((ps.map (fun p => p.1)).sum / ps.length, (ps.map (fun p => p.2.1)).sum / ps.length,
    (ps.map (fun p => p.2.2)).sum / ps.length)

/-- `Molecule.__init__` with `__attrs_post_init__`, lines 28-39, for an array of floats. -/
noncomputable def initMolecule (cls : Cls) (dimensions : Int) (particles : List String)
    (positions : List V3) (radii : Dict String ℝ) (rigid : Bool)
    (radius distance angle : Attr) : Mol where
  cls := cls
  dimensions := dimensions
  particles := particles
  positions := positions.map (fun p => p - centre positions)
  radii := Dict.setdefault radii "A" 1
  rigid := rigid
  radius := radius
  distance := distance
  angle := angle

/-- What the caller's arguments hold after `Molecule(positions=…, radii=…)`: the in-place
subtraction on line 39 and the `setdefault` on line 38 act on the objects passed in. -/
noncomputable def callerAfter (positions : List V3) (radii : Dict String ℝ) :
    List V3 × Dict String ℝ :=
  (positions.map (fun p => p - centre positions), Dict.setdefault radii "A" 1)

/-- `Molecule()`. -/
noncomputable def molecule (particles : List String := ["A"]) (positions : List V3 := [(0, 0, 0)])
    (radii : Dict String ℝ := []) : Mol :=
  initMolecule .molecule 3 particles positions radii false .missing .missing .missing

/-- `Disc()`, lines 64-70. -/
noncomputable def disc : Mol :=
  { initMolecule .disc 2 ["A"] [(0, 0, 0)] [] false .missing .missing .missing with
    radii := [("A", 1 / 2)] }

/-- `Sphere()`, lines 73-79. -/
noncomputable def sphere : Mol :=
  { initMolecule .sphere 3 ["A"] [(0, 0, 0)] [] false .missing .missing .missing with
    radii := [("A", 1 / 2)] }

/-- `np.deg2rad`. -/
noncomputable def deg2rad (a : ℝ) : ℝ := a * Real.pi / 180

/-- The positions of a trimer before centring, lines 132-138. -/
noncomputable def trimerPositions (distance angle : ℝ) : List V3 :=
  let radAng := deg2rad angle
  [(0, 0, 0),
   (-distance * Real.sin (radAng / 2), distance * Real.cos (radAng / 2), 0),
   (distance * Real.sin (radAng / 2), distance * Real.cos (radAng / 2), 0)]

/-- A number as a float. -/
def Arg.toReal : Arg → Option ℝ
  | .int n => some n
  | .float x => some x
  | .nan => none
  | .other => none

/-- `isinstance(x, (float, int))`. -/
def Arg.isNumber : Arg → Bool
  | .other => false
  | _ => true

/-- `Trimer(radius, distance, angle)`, lines 95-149, for numbers; a NaN is not modelled beyond the
checks (the object exists, with NaN positions: here positions and radii are those for 0). -/
noncomputable def trimer (radius distance angle : Arg) : Except PyErr Mol :=
  if radius.isNumber = false then .error .valueError
  else if distance.isNumber = false then .error .valueError
  else if angle.isNumber = false then .error .valueError
  else .ok (initMolecule .trimer 2 ["A", "B", "B"]
    (trimerPositions (distance.toReal.getD 0) (angle.toReal.getD 0))
    [("A", 1), ("B", radius.toReal.getD 0)] true radius.attr distance.attr angle.attr)

/-- `Dimer(radius, distance)`, lines 183-212.  The array on line 202 has an integer type when
`distance` is an `int`, and then the in-place subtraction of line 39 is a TypeError.  Arguments that
are not numbers are not modelled (TypeError here). -/
noncomputable def dimer (radius distance : Arg) : Except PyErr Mol :=
  match distance with
  | .int _ => .error .typeError
  | .other => .error .typeError
  | .float _ | .nan => .ok (initMolecule .dimer 2 ["A", "B"]
      [(0, 0, 0), (0, distance.toReal.getD 0, 0)]
      [("A", 1), ("B", radius.toReal.getD 0)] true radius.attr distance.attr .missing)

/-- `num_particles`, lines 41-44. -/
def Mol.numParticles (m : Mol) : Nat := m.particles.length

/-- `get_radii`, lines 56-58. -/
def Mol.getRadii (m : Mol) : Except PyErr (List ℝ) :=
  m.particles.foldr (fun p acc =>
    match Dict.get? m.radii p, acc with
    | none, _ => .error .keyError
    | some _, .error e => .error e
    | some r, .ok rs => .ok (r :: rs)) (.ok [])

/-- Sorting of strings. -/
def sortStrings (l : List String) : List String := l.mergeSort (fun a b => decide (a ≤ b))

/-- `get_types`, lines 49-51. -/
def Mol.getTypes (m : Mol) : List String := sortStrings (m.radii.map Prod.fst)

/-- `__str__`, lines 53-54. -/
def Mol.str (m : Mol) : String :=
  match m.cls with
  | .molecule => "Molecule"
  | .disc => "Disc"
  | .sphere => "Sphere"
  | .trimer => "Trimer"
  | .dimer => "Dimer"

open Classical in
/-- `self.attr == other.attr` on numbers; NaN equals nothing; a missing attribute is an
AttributeError. -/
noncomputable def Attr.eq : Attr → Attr → Except PyErr Bool
  | .missing, _ => .error .attributeError
  | _, .missing => .error .attributeError
  | .val x, .val y => .ok (decide (x = y))
  | _, _ => .ok false

/-- `a and b` on results. -/
def andThen (a : Except PyErr Bool) (b : Except PyErr Bool) : Except PyErr Bool :=
  match a with
  | .error e => .error e
  | .ok false => .ok false
  | .ok true => b

/-- The method `__eq__` of an object: `Molecule.__eq__` 60-61, `Trimer.__eq__` 160-168,
`Dimer.__eq__` 214-218. -/
noncomputable def eqMethod (self other : Mol) : Except PyErr Bool :=
  if self.cls.sub other.cls then
    match self.cls with
    | .trimer => andThen (Attr.eq self.radius other.radius)
        (andThen (Attr.eq self.distance other.distance) (Attr.eq self.angle other.angle))
    | .dimer => andThen (Attr.eq self.radius other.radius) (Attr.eq self.distance other.distance)
    | _ => .ok true
  else .ok false

/-- The expression `a == b`: Python asks `b` first when its class is a proper subclass of that of
`a`. -/
noncomputable def pyEq (a b : Mol) : Except PyErr Bool :=
  if a.cls ≠ b.cls ∧ b.cls.sub a.cls then eqMethod b a else eqMethod a b

end Verif.Molecule
