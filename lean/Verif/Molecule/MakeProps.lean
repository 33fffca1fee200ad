import Verif.Molecule.Props
/-!
# Exactly which arguments make a molecule: C65
-/

namespace Verif.Molecule

/-- **C65, exactly.**  A dimer can be made if and only if the distance is a float; a trimer if and only
if all three arguments are numbers. -/
theorem C65_exactly (r d a : Arg) :
    ((∃ m, dimer r d = .ok m) ↔ d = .nan ∨ ∃ x, d = .float x) ∧
    ((∃ m, trimer r d a = .ok m) ↔ r ≠ .other ∧ d ≠ .other ∧ a ≠ .other) := by
  constructor
  · cases d <;> simp [dimer]
  · cases r <;> cases d <;> cases a <;> simp [trimer, Arg.isNumber]

/-- No dimer of distance 1, but one of distance 1.0. -/
example : (¬ ∃ m, dimer (.float 1) (.int 1) = .ok m) ∧ ∃ m, dimer (.float 1) (.float 1) = .ok m := by
  rw [(C65_exactly (.float 1) (.int 1) .nan).1, (C65_exactly (.float 1) (.float 1) .nan).1]
  simp

end Verif.Molecule
