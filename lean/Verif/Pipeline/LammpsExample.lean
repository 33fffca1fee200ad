import Verif.Pipeline.LammpsLemmas
import Verif.Pipeline.Example
/-!
# A lammps trajectory to try the hypotheses on

Ten atoms in a square of side 4, one of which walks out of it; the columns are `id z y x`, the lines
are in reverse order.
-/

namespace Verif.Pipeline

open Verif.Motion Verif.Dynamics Verif.Relax Verif.Gsd Verif.Process Verif.Cache Verif.Lammps Verif.Text

/-- Whole numbers as reals. -/
noncomputable def intFloat (w : List Char) : Option ℝ := (pyInt w).map (fun (n : Int) => (n : ℝ))

theorem intFloat_nl (w : List Char) : intFloat (w ++ ['\n']) = intFloat w := by
  unfold intFloat
  rw [pyInt_append_nl]

theorem intFloat_showNat (n : ℕ) : intFloat (showNat n) = some (n : ℝ) := by
  unfold intFloat
  rw [pyInt_showNat]
  simp

/-- The columns of the file. -/
def lHeads : List (List Char) := ["id".toList, "z".toList, "y".toList, "x".toList]

/-- Frame `i`. -/
def lText (i : ℕ) : FrameText ℝ where
  timestep := (3 * i : ℕ)
  timestepText := showNat (3 * i)
  numAtoms := 10
  numAtomsText := showNat 10
  boundsTail := " pp pp pp".toList
  bound := fun _ => ((showNat 0, (0 : ℕ)), (showNat 4, (4 : ℕ)), [' '])
  headings := lHeads
  headingsTail := [' ']
  cell := fun m j => if j = 0 then (showNat (m + 1), (m + 1 : ℕ))
    else if j = 3 ∧ m = 0 then (showNat (i % 4), (i % 4 : ℕ)) else (showNat 0, (0 : ℕ))
  extra := fun _ => [[]]
  order := [9, 8, 7, 6, 5, 4, 3, 2, 1, 0]

/-- True positions. -/
def lU : ℕ → Fin 10 → V3 := fun i m => if m = 0 then ((i : ℕ), 0, 0) else 0

theorem lText_valid (i : ℕ) : (lText i).Valid intFloat where
  timestep_word := showNat_word _
  timestep_int := pyInt_showNat _
  numAtoms_word := showNat_word _
  numAtoms_int := pyInt_showNat 10
  boundsTail := (by decide : '\n' ∉ " pp pp pp".toList)
  bound_word := fun _ => ⟨showNat_word _, showNat_word _⟩
  bound_float := fun _ => ⟨intFloat_showNat 0, intFloat_showNat 4⟩
  bound_tail := fun _ => ⟨(by decide : '\n' ∉ [' ']), fun c hc => by
    have : c = ' ' := (Option.some_inj.1 hc).symm
    subst this; decide⟩
  heading_word := by
    intro h hh
    simp only [lText, lHeads, List.mem_cons, List.not_mem_nil, or_false] at hh
    rcases hh with rfl | rfl | rfl | rfl <;> exact ⟨by decide, by decide⟩
  heading_nodup := (by decide : lHeads.Nodup)
  heading_id := (by decide : "id".toList ∈ lHeads)
  headingsTail := (by decide : ∀ c ∈ [' '], c = ' ')
  cell_word := by
    intro m j
    simp only [lText]
    split
    · exact showNat_word _
    · split <;> exact showNat_word _
  cell_float := by
    intro m j
    simp only [lText]
    split
    · exact intFloat_showNat _
    · split <;> exact intFloat_showNat _
  cell_id := by
    intro m j h
    have h' : lHeads[j]? = some "id".toList := h
    have hj : j = 0 := by
      match j, h' with
      | 0, _ => rfl
      | 1, h => exact absurd h (by decide)
      | 2, h => exact absurd h (by decide)
      | 3, h => exact absurd h (by decide)
      | j + 4, h => exact absurd h (by simp [lHeads])
    subst hj
    have := pyInt_showNat (m + 1)
    push_cast at this
    exact this
  extra_piece := by
    intro m w hw
    simp only [lText, List.mem_cons, List.not_mem_nil, or_false] at hw
    subst hw
    exact ⟨by unfold Piece; decide, by decide⟩
  order_perm := (by decide : [9, 8, 7, 6, 5, 4, 3, 2, 1, 0].Perm (List.range 10))

theorem l_run (n : ℕ) : LammpsRun intFloat 10 n lText (fun _ => 3) (fun _ => 2) (fun _ => 1) lU where
  valid i _ := lText_valid i
  atoms _ _ := rfl
  columns _ _ := ⟨rfl, rfl, rfl⟩
  box := by simp [textCell, lText, Cell.Proper]
  image := by
    intro i _ m
    by_cases hm : m = 0
    · have hi : (i : ℝ) = 4 * (i / 4 : ℕ) + (i % 4 : ℕ) := by exact_mod_cast (Nat.div_add_mod i 4).symm
      generalize i / 4 = q at hi
      refine ⟨-(q : ℤ), 0, 0, ?_⟩
      subst hm
      simp only [textCell, lText, written, lU, Cell.flat, Cell.comb, if_true, Fin.val_zero]
      simp only [show (3 : ℕ) ≠ 0 by decide, if_false, true_and, if_true]
      ext
      · simp
        rw [hi]
        ring
      · simp
      · simp
    · refine ⟨0, 0, 0, ?_⟩
      have hm' : (m : ℕ) ≠ 0 := fun h => hm (Fin.ext h)
      simp [textCell, lText, written, lU, Cell.flat, Cell.comb, hm]
  step := by
    intro i _ m
    by_cases hm : m = 0
    · refine ⟨1 / 4, 0, 0, by rw [abs_lt]; constructor <;> norm_num, by simp, by simp, ?_⟩
      simp [textCell, lText, lU, hm, Cell.flat, Cell.comb]
    · exact ⟨0, 0, 0, by simp, by simp, by simp, by simp [textCell, lU, hm, Cell.flat, Cell.comb]⟩

end Verif.Pipeline
