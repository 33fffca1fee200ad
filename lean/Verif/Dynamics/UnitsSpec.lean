import Verif.Dynamics.Spec
/-!
# Vocabulary for a change of the unit of length
-/

namespace Verif.Dynamics

open Verif.Motion

/-- The cell with all lengths in a unit that is `a` times smaller; tilts have no unit. -/
def Cell.rescaled (a : ℝ) (c : Cell) : Cell := ⟨a * c.Lx, a * c.Ly, a * c.Lz, c.xy, c.xz, c.yz, c.is2D⟩

/-- The molecule in that unit. -/
def Mol.rescaled (a : ℝ) (m : Mol) : Mol := ⟨m.dimensions, m.positions.map (fun v => a • v)⟩

/-- The power of the length in the unit of a quantity: a displacement is a length, `msd` a length squared, `mfd` to
the fourth; the others are times, angles or ratios. -/
def lengthPower : Quantity → ℕ
  | .mean_displacement => 1
  | .msd => 2
  | .mfd => 4
  | _ => 0

/-- A value in the other unit. -/
noncomputable def Val.rescaled (a : ℝ) (p : ℕ) : Val → Val
  | .int i => .int i
  | .num x => .num (x.map (a ^ p * ·))

/-- The dictionary of quantities in the other unit. -/
noncomputable def rescaledRow (a : ℝ) (row : Dict Quantity Val) : Dict Quantity Val :=
  row.map (fun p => (p.1, Val.rescaled a (lengthPower p.1) p.2))

/-- The order is found by comparing numbers with each other, as in all sorting algorithms of numpy. -/
def Compares (argsort : List ℝ → List ℕ) : Prop :=
  ∀ (l : List ℝ) (f : ℝ → ℝ), StrictMono f → argsort (l.map f) = argsort l

end Verif.Dynamics
