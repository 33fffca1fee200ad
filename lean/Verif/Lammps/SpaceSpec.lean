import Verif.Lammps.Spec
/-!
# Vocabulary for white space in lammps files
-/

namespace Verif.Lammps

variable {F : Type}

/-- White space within a line. -/
def Blank (w : List Char) : Prop := ∀ c ∈ w, c ∈ [' ', '\t', '\x0b', '\x0c']

/-- White space around the numbers of a frame. -/
structure Spacing where
  stepLead : List Char
  stepTail : List Char
  numLead : List Char
  numTail : List Char
  /-- before the first number of a line of the box -/
  boundLead : Fin 3 → List Char
  /-- between the two numbers -/
  boundGap : Fin 3 → List Char

/-- All of it is white space, and there is some between the two numbers. -/
structure Spacing.Valid (s : Spacing) : Prop where
  step : Blank s.stepLead ∧ Blank s.stepTail
  num : Blank s.numLead ∧ Blank s.numTail
  bound : ∀ a, Blank (s.boundLead a) ∧ Blank (s.boundGap a) ∧ s.boundGap a ≠ []

/-- One line of the box section. -/
def FrameText.spacedBound (f : FrameText F) (s : Spacing) (a : Fin 3) : List Char :=
  s.boundLead a ++ (f.bound a).1.1 ++ s.boundGap a ++ (f.bound a).2.1.1 ++ (f.bound a).2.2 ++ ['\n']

/-- The text of the frame with this spacing. -/
def FrameText.spaced (f : FrameText F) (s : Spacing) : List Char :=
  "ITEM: TIMESTEP\n".toList ++ (s.stepLead ++ f.timestepText ++ s.stepTail ++ '\n' ::
  ("ITEM: NUMBER OF ATOMS\n".toList ++ (s.numLead ++ f.numAtomsText ++ s.numTail ++ '\n' ::
  ("ITEM: BOX BOUNDS".toList ++ f.boundsTail ++ '\n' ::
  (f.spacedBound s 0 ++ (f.spacedBound s 1 ++ (f.spacedBound s 2 ++
  (joinSp ("ITEM:".toList :: "ATOMS".toList :: f.headings) ++ f.headingsTail ++ ['\n']))))))))
  ++ f.order.flatMap f.row

end Verif.Lammps
