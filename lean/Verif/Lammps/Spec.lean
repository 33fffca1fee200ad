import Verif.Lammps.Model
/-!
# Vocabulary for the properties of the lammps reader

A `FrameText` describes how one frame is written in a lammpstrj file: the texts of the numbers, the
order of the atom lines, trailing blanks.  `FrameText.write` is the text, `FrameText.value` is what
the text means, both without reference to the parser.
-/

namespace Verif.Lammps

open Verif.Text

variable {F : Type}

/-- Words separated by single spaces. -/
def joinSp : List (List Char) → List Char
  | [] => []
  | [w] => w
  | w :: w' :: ws => w ++ ' ' :: joinSp (w' :: ws)

/-- A non-empty word without white space. -/
def Word (w : List Char) : Prop := w ≠ [] ∧ ∀ c ∈ w, isSpace c = false

/-- A piece of a line. -/
def Piece (w : List Char) : Prop := '\n' ∉ w

/-- How a frame is written. -/
structure FrameText (F : Type) where
  timestep : Int
  timestepText : List Char
  numAtoms : Nat
  numAtomsText : List Char
  /-- what follows `ITEM: BOX BOUNDS` -/
  boundsTail : List Char
  /-- low and high bound of the three axes: texts, values, and what follows on the line -/
  bound : Fin 3 → (List Char × F) × (List Char × F) × List Char
  headings : List (List Char)
  /-- blanks at the end of the headings line -/
  headingsTail : List Char
  /-- text and value of column `j` of atom `i` (atoms are counted from 0 here, from 1 in the file) -/
  cell : Nat → Nat → List Char × F
  /-- further words at the end of the line of an atom -/
  extra : Nat → List (List Char)
  /-- the atoms in the order in which their lines are written -/
  order : List Nat

namespace FrameText

/-- The line of one atom. -/
def row (f : FrameText F) (i : Nat) : List Char :=
  joinSp ((List.range f.headings.length).map (fun j => (f.cell i j).1) ++ f.extra i) ++ ['\n']

/-- One line of the box section. -/
def boundLine (f : FrameText F) (a : Fin 3) : List Char :=
  (f.bound a).1.1 ++ ' ' :: (f.bound a).2.1.1 ++ (f.bound a).2.2 ++ ['\n']

/-- The text of the frame up to the atom lines. -/
def header (f : FrameText F) : List Char :=
  "ITEM: TIMESTEP\n".toList ++ (f.timestepText ++ '\n' ::
  ("ITEM: NUMBER OF ATOMS\n".toList ++ (f.numAtomsText ++ '\n' ::
  ("ITEM: BOX BOUNDS".toList ++ f.boundsTail ++ '\n' ::
  (f.boundLine 0 ++ (f.boundLine 1 ++ (f.boundLine 2 ++
  (joinSp ("ITEM:".toList :: "ATOMS".toList :: f.headings) ++ f.headingsTail ++ ['\n']))))))))

/-- The text of the frame. -/
def write (f : FrameText F) : List Char := f.header ++ f.order.flatMap f.row

/-- The meaning of the frame: the columns list the atoms by id, whatever the order of the lines. -/
def value [Sub F] (f : FrameText F) : LFrame F where
  timestep := f.timestep
  box := [(f.bound 0).2.1.2 - (f.bound 0).1.2, (f.bound 1).2.1.2 - (f.bound 1).1.2,
    (f.bound 2).2.1.2 - (f.bound 2).1.2]
  cols := (List.range f.headings.length).map (fun j =>
    (f.headings.getD j [], (List.range f.numAtoms).map (fun i => some (f.cell i j).2)))

/-- The texts mean their values, lines are lines, there is one `id` column holding the numbers
1 … N, and the columns have different names. -/
structure Valid (float : List Char → Option F) (f : FrameText F) : Prop where
  timestep_word : Word f.timestepText
  timestep_int : pyInt f.timestepText = some f.timestep
  numAtoms_word : Word f.numAtomsText
  numAtoms_int : pyInt f.numAtomsText = some (f.numAtoms : Int)
  boundsTail : Piece f.boundsTail
  bound_word : ∀ a, Word (f.bound a).1.1 ∧ Word (f.bound a).2.1.1
  bound_float : ∀ a, float (f.bound a).1.1 = some (f.bound a).1.2 ∧
    float (f.bound a).2.1.1 = some (f.bound a).2.1.2
  bound_tail : ∀ a, Piece (f.bound a).2.2 ∧ ∀ c, (f.bound a).2.2.head? = some c → isSpace c = true
  heading_word : ∀ h ∈ f.headings, Word h
  heading_nodup : f.headings.Nodup
  heading_id : "id".toList ∈ f.headings
  headingsTail : ∀ c ∈ f.headingsTail, c = ' '
  cell_word : ∀ i j, Word (f.cell i j).1
  cell_float : ∀ i j, float (f.cell i j).1 = some (f.cell i j).2
  cell_id : ∀ i j, f.headings[j]? = some "id".toList → pyInt (f.cell i j).1 = some ((i : Int) + 1)
  extra_piece : ∀ i, ∀ w ∈ f.extra i, Piece w ∧ ' ' ∉ w
  order_perm : f.order.Perm (List.range f.numAtoms)

end FrameText

/-- Decimal text of a natural number. -/
def showNat (n : Nat) : List Char :=
  if n < 10 then [Char.ofNat (48 + n)] else showNat (n / 10) ++ [Char.ofNat (48 + n % 10)]

end Verif.Lammps

namespace Verif.Lammps

/-- `l` is the first line of `s`, with its newline if it has one; empty at the end of the file. -/
def FirstLine (s l : List Char) : Prop :=
  ∃ w, '\n' ∉ w ∧ ((∃ rest, s = w ++ '\n' :: rest ∧ l = w ++ ['\n']) ∨ (s = w ∧ l = w))

/-- Lammps' own description of a triclinic cell: the first two numbers of the box lines bound the
tilted cell, so the edge along x is shorter than their difference by the spread of
`0, xy, xz, xy+xz` (lammps documentation of `dump custom`). -/
def triclinicLx (loBound hiBound xy xz : Int) : Int :=
  (hiBound - max (max 0 xy) (max xz (xy + xz))) - (loBound - min (min 0 xy) (min xz (xy + xz)))

end Verif.Lammps
