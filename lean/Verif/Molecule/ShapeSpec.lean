import Verif.Molecule.Spec
/-!
# Vocabulary for the shape of molecules
-/

namespace Verif.Molecule

/-- The same particles at the same places, with the same radii. -/
def SameShape (a b : Mol) : Prop :=
  a.particles = b.particles ∧ a.positions = b.positions ∧ a.radii = b.radii

end Verif.Molecule
