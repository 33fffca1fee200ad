import Verif.Rounding.ReadLemmas
import Verif.Pipeline.LammpsExample
/-!
# A frame with any number of atoms
-/

namespace Verif.Rounding

open Verif.Motion Verif.Lammps Verif.Text

/-- `N` atoms at the origin of a cell of side 4, the columns are `id` and `x`. -/
def manyText (N : ℕ) : FrameText ℝ where
  timestep := (7 : ℕ)
  timestepText := showNat 7
  numAtoms := N
  numAtomsText := showNat N
  boundsTail := " pp pp pp".toList
  bound := fun _ => ((showNat 0, (0 : ℕ)), (showNat 4, (4 : ℕ)), [' '])
  headings := ["id".toList, "x".toList]
  headingsTail := []
  cell := fun m j => if j = 0 then (showNat (m + 1), (m + 1 : ℕ)) else (showNat 0, (0 : ℕ))
  extra := fun _ => []
  order := List.range N

theorem manyText_id {j : ℕ} (h : (["id".toList, "x".toList] : List (List Char))[j]? = some "id".toList) :
    j = 0 := by
  match j, h with
  | 0, _ => rfl
  | 1, h => exact absurd h (by decide)
  | j + 2, h => exact absurd h (by simp)

theorem manyText_valid (N : ℕ) : (manyText N).Valid Pipeline.intFloat where
  timestep_word := showNat_word _
  timestep_int := pyInt_showNat _
  numAtoms_word := showNat_word _
  numAtoms_int := pyInt_showNat N
  boundsTail := (by decide : '\n' ∉ " pp pp pp".toList)
  bound_word := fun _ => ⟨showNat_word _, showNat_word _⟩
  bound_float := fun _ => ⟨Pipeline.intFloat_showNat 0, Pipeline.intFloat_showNat 4⟩
  bound_tail := fun _ => ⟨(by decide : '\n' ∉ [' ']), fun c hc => by
    have : c = ' ' := (Option.some_inj.1 hc).symm
    subst this; decide⟩
  heading_word := by
    intro h hh
    simp only [manyText, List.mem_cons, List.not_mem_nil, or_false] at hh
    rcases hh with rfl | rfl <;> exact ⟨by decide, by decide⟩
  heading_nodup := (by decide : (["id".toList, "x".toList] : List (List Char)).Nodup)
  heading_id := (by decide : "id".toList ∈ ["id".toList, "x".toList])
  headingsTail := fun c hc => absurd hc (by simp [manyText])
  cell_word := by
    intro m j
    simp only [manyText]
    split <;> exact showNat_word _
  cell_float := by
    intro m j
    simp only [manyText]
    split <;> exact Pipeline.intFloat_showNat _
  cell_id := by
    intro m j h
    obtain rfl := manyText_id h
    have := pyInt_showNat (m + 1)
    push_cast at this
    exact this
  extra_piece := fun i w hw => absurd hw (by simp [manyText])
  order_perm := List.Perm.refl _

end Verif.Rounding
