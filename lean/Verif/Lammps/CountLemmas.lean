import Verif.Lammps.Lemmas
/-!
# Lemma for the number of atoms
-/

namespace Verif.Lammps

open Verif.Text

variable {F : Type}

/-- The headings of a well formed frame, before anything that follows. -/
theorem readAtoms_negative (float : List Char → Option F) (f : FrameText F) (hv : f.Valid float) (t n : Int)
    (hn : n < 0) (box : List F) (rest : List Char) :
    readAtoms float t n box
      (joinSp ("ITEM:".toList :: "ATOMS".toList :: f.headings) ++ f.headingsTail ++ '\n' :: rest) =
      .error .valueError := by
  have hwords : ∀ w ∈ "ITEM:".toList :: "ATOMS".toList :: f.headings, Word w := by
    intro w hw
    simp only [List.mem_cons] at hw
    rcases hw with rfl | rfl | hw
    · exact ⟨by decide, by decide⟩
    · exact ⟨by decide, by decide⟩
    · exact hv.heading_word w hw
  have hline := readline_line (joinSp ("ITEM:".toList :: "ATOMS".toList :: f.headings) ++ f.headingsTail) rest (by
    rw [List.mem_append, not_or]
    refine ⟨joinSp_no_nl _ (fun w hw => (hwords w hw).no_nl), ?_⟩
    intro hm
    have := hv.headingsTail _ hm
    revert this; decide)
  have hj : joinSp ("ITEM:".toList :: "ATOMS".toList :: f.headings) =
      "ITEM: ATOMS".toList ++ (match f.headings with | [] => [] | h :: hs => ' ' :: joinSp (h :: hs)) := by
    cases f.headings with
    | nil => rfl
    | cons h hs => rfl
  have hsub : hasSub "ITEM: ATOMS".toList
      (joinSp ("ITEM:".toList :: "ATOMS".toList :: f.headings) ++ f.headingsTail ++ ['\n']) = true := by
    rw [hasSub_iff, hj, List.append_assoc, List.append_assoc]
    exact (List.prefix_append _ _).isInfix
  unfold readAtoms
  simp only [hline, hsub, Bool.true_eq_false, if_false]
  split
  · rfl
  · rw [if_pos hn]

end Verif.Lammps
