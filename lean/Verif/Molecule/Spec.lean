import Verif.Molecule.Model
/-!
# Vocabulary for the properties of molecules
-/

namespace Verif.Molecule

open Verif.Motion (V3)

/-- The molecules that the constructors make. -/
inductive Constructed : Mol → Prop
  | molecule (particles : List String) (positions : List V3) (radii : Dict String ℝ) :
      Constructed (molecule particles positions radii)
  | disc : Constructed disc
  | sphere : Constructed sphere
  | trimer (r d a : Arg) (m : Mol) : trimer r d a = .ok m → Constructed m
  | dimer (r d : Arg) (m : Mol) : r ≠ .other → dimer r d = .ok m → Constructed m

/-- Not a NaN. -/
def Attr.real (a : Attr) : Prop := a ≠ .nan

/-- No parameter is NaN. -/
def NoNaN (m : Mol) : Prop := m.radius.real ∧ m.distance.real ∧ m.angle.real

/-- Scalar product and length. -/
def dot3 (p q : V3) : ℝ := p.1 * q.1 + p.2.1 * q.2.1 + p.2.2 * q.2.2

/-- Distance of two points. -/
noncomputable def dist3 (p q : V3) : ℝ := Real.sqrt (dot3 (p - q) (p - q))

/-- The same class and the same parameters. -/
def SameKind (a b : Mol) : Prop :=
  a.cls = b.cls ∧ a.radius = b.radius ∧ a.distance = b.distance ∧ a.angle = b.angle

end Verif.Molecule
