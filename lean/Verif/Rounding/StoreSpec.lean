import Verif.Rounding.Spec
import Verif.Rounding.StoreModel
import Verif.Lammps.Spec
import Verif.Motion.Spec
/-!
# Vocabulary for the properties of what is stored in single precision
-/

namespace Verif.Rounding

open Verif.Motion Verif.Lammps

/-- A frame lists the ids 1, 2, …, N in its column `id`. -/
def ListsIds (f : LFrame ℝ) (N : ℕ) : Prop :=
  Dict.get? f.cols "id".toList = some ((List.range N).map (fun i : ℕ => some ((i : ℝ) + 1)))

/-- A molecule moving ahead along x is followed up to a fraction `c` of its way: whatever images of the
true positions `u` are stored, as long as no step is half the cell. -/
def Follows (wrap : V3 → V3) (cell : Cell) (c : ℝ) : Prop :=
  ∀ (n : ℕ) (u s : ℕ → V3), (∀ i ≤ n, float32.Number (s i).1 ∧ float32.Number (s i).2.1 ∧
      float32.Number (s i).2.2) →
    (∀ i ≤ n, cell.Lattice (cell.flat (s i - u i))) →
    (∀ i < n, cell.WithinHalf (cell.flat (u (i + 1) - u i))) →
    (∀ i < n, (u i).1 ≤ (u (i + 1)).1) →
    ∃ d : V3, track32 wrap [s 0] ((List.range n).map (fun i => [s (i + 1)])) = .ok [d] ∧
      |d.1 - ((u n).1 - (u 0).1)| ≤ c * ((u n).1 - (u 0).1)

/-- A multiple of `q`. -/
def OnGrid (q x : ℝ) : Prop := ∃ m : ℤ, x = m * q

/-- All coordinates are multiples of `q`. -/
def OnGrid3 (q : ℝ) (v : V3) : Prop := OnGrid q v.1 ∧ OnGrid q v.2.1 ∧ OnGrid q v.2.2

/-- All coordinates are at most `B` in size. -/
def Within (B : ℝ) (v : V3) : Prop := |v.1| ≤ B ∧ |v.2.1| ≤ B ∧ |v.2.2| ≤ B

end Verif.Rounding
