import Verif.Lammps.Props
import Verif.Lammps.CountLemmas
/-!
# C19: a number of atoms that cannot be
-/

namespace Verif.Lammps

open Verif.Text

variable {F : Type} [Sub F]

/-- **C19, the number of atoms.**  Good frames followed by a frame whose number of atoms is not a whole number,
or is negative: exactly the good frames are yielded, and the ValueError is not turned into a RuntimeError. -/
theorem C19_count (float : List Char → Option F) (hfloat : ∀ w, float (w ++ ['\n']) = float w)
    (fs : List (FrameText F)) (hv : ∀ f ∈ fs, f.Valid float) (f : FrameText F) (hf : f.Valid float)
    (c : List Char) (hc : Word c) (hbad : ∀ n, pyInt c = some n → n < 0) (tail : List Char) :
    parseLammps float (fs.flatMap FrameText.write ++ ({ f with numAtomsText := c }.header ++ tail)) =
      (fs.map FrameText.value, some .valueError) := by
  have hw : { f with numAtomsText := c }.header ++ tail = "ITEM: TIMESTEP".toList ++ '\n' :: (f.timestepText ++ '\n' ::
      ("ITEM: NUMBER OF ATOMS".toList ++ '\n' :: (c ++ '\n' ::
      ("ITEM: BOX BOUNDS".toList ++ f.boundsTail ++ '\n' ::
        (f.boundLine 0 ++ (f.boundLine 1 ++ (f.boundLine 2 ++
        (joinSp ("ITEM:".toList :: "ATOMS".toList :: f.headings) ++ f.headingsTail ++ '\n' :: tail)))))))) := by
    change ("ITEM: TIMESTEP\n".toList ++ (f.timestepText ++ '\n' ::
      ("ITEM: NUMBER OF ATOMS\n".toList ++ (c ++ '\n' ::
      ("ITEM: BOX BOUNDS".toList ++ f.boundsTail ++ '\n' ::
      (f.boundLine 0 ++ (f.boundLine 1 ++ (f.boundLine 2 ++
      (joinSp ("ITEM:".toList :: "ATOMS".toList :: f.headings) ++ f.headingsTail ++ ['\n'])))))))) ) ++ tail = _
    rw [show "ITEM: TIMESTEP\n".toList = "ITEM: TIMESTEP".toList ++ ['\n'] from rfl,
      show "ITEM: NUMBER OF ATOMS\n".toList = "ITEM: NUMBER OF ATOMS".toList ++ ['\n'] from rfl]
    simp only [List.append_assoc, List.cons_append, List.nil_append]
  have hread : readFrame float ({ f with numAtomsText := c }.header ++ tail) = .error .valueError := by
    rw [hw]
    unfold readFrame
    rw [readline_line _ _ (by decide), if_neg (fun h => h rfl)]
    simp only
    rw [readline_line _ _ hf.timestep_word.no_nl]
    simp only
    rw [strip_word_nl _ hf.timestep_word, hf.timestep_int]
    simp only
    unfold readNum
    rw [readline_line _ _ (by decide), if_neg (fun h => h rfl)]
    simp only
    rw [readline_line _ _ hc.no_nl]
    simp only
    rw [strip_word_nl _ hc]
    cases hn : pyInt c with
    | none => rfl
    | some n =>
      simp only
      unfold readBox
      rw [readline_line _ _ (by
        rw [List.mem_append, not_or]
        exact ⟨by decide, hf.boundsTail⟩)]
      have hsub : hasSub "ITEM: BOX BOUNDS".toList
          ("ITEM: BOX BOUNDS".toList ++ f.boundsTail ++ ['\n']) = true := by
        rw [hasSub_iff, List.append_assoc]
        exact (List.prefix_append _ _).isInfix
      simp only [hsub, Bool.true_eq_false, if_false, readBound_eq float f hf]
      exact readAtoms_negative float f hf _ n (hbad n hn) _ tail
  rw [parseLammps_append float hfloat _ fs hv, parseLammps_error float _ _ (by
    rw [hw]; exact List.append_ne_nil_of_left_ne_nil (by decide) _) hread, List.append_nil]
  rfl

example : parseLammps pyInt ((sampleText 0).write ++ ({ sampleText 1 with numAtomsText := "-2".toList }.header ++ [])) =
    ([(sampleText 0).value], some .valueError) := by
  have h := C19_count pyInt pyInt_append_nl [sampleText 0] (by
    intro f hf
    obtain rfl : f = sampleText 0 := by simpa using hf
    exact sampleText_valid 0) (sampleText 1) (sampleText_valid 1) "-2".toList ⟨by decide, by decide⟩ (by
    intro n hn
    have : pyInt "-2".toList = some (-2) := by decide
    rw [this] at hn
    obtain rfl := Option.some.inj hn
    decide) []
  simpa using h

end Verif.Lammps
