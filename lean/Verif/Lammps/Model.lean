import Verif.Text
/-!
# Model of `src/sdanalysis/read/_lammps.py`

The file is a list of characters; `open` is in text mode with universal newlines, so `'\n'` ends
every line.  `float` is a parameter (`none` is ValueError).  The columns of a frame are arrays of
`Option F`: `none` is an entry of `np.empty` that was never written.
Simplification: float32 rounding is ignored; the columns, the box and the timestep, which share one
dictionary in the code, are separate fields here (they differ only for a column named `box` or
`timestep`).
-/

namespace Verif.Lammps

open Verif.Text

/-- The dictionary wrapped by `LammpsFrame`, _lammps.py:82-93. -/
structure LFrame (F : Type) where
  timestep : Int
  box : List F
  cols : Dict (List Char) (List (Option F))
  deriving DecidableEq

variable {F : Type} [Sub F]

/-- numpy index normalisation for an axis of length `n`; `none` is IndexError. -/
def npIndex (n : Nat) (i : Int) : Option Nat :=
  if 0 ≤ i ∧ i < n then some i.toNat
  else if -(n : Int) ≤ i ∧ i < 0 then some (i + n).toNat
  else none

/-- `frame[field][i] = v`, _lammps.py:90. -/
def setCell (cols : Dict (List Char) (List (Option F))) (field : List Char) (i : Nat) (v : F) :
    Dict (List Char) (List (Option F)) :=
  Dict.set cols field (((Dict.get? cols field).getD []).set i (some v))

/-- The inner loop over `zip(headings, line)`, _lammps.py:89-90. -/
def writeRow (float : List Char → Option F) (n : Nat) (molIndex : Int) :
    Dict (List Char) (List (Option F)) → List (List Char × List Char) →
    Except PyErr (Dict (List Char) (List (Option F)))
  | cols, [] => .ok cols
  | cols, (h, w) :: rest =>
    match float w with
    | none => .error .valueError
    | some v =>
      match npIndex n molIndex with
      | none => .error .indexError
      | some i => writeRow float n molIndex (setCell cols h i v) rest

/-- The loop over the atoms, _lammps.py:86-90, with `k` rows to go. -/
def readRows (float : List Char → Option F) (headings : List (List Char)) (idCol n : Nat) :
    Nat → List Char → Dict (List Char) (List (Option F)) →
    Except PyErr (Dict (List Char) (List (Option F)) × List Char)
  | 0, src, cols => .ok (cols, src)
  | k + 1, src, cols =>
    let line := splitOn ' ' (readline src).1
    match line[idCol]? with
    | none => .error .indexError
    | some w =>
      match pyInt w with
      | none => .error .valueError
      | some id =>
        match writeRow float n (id - 1) cols (headings.zip line) with
        | .error e => .error e
        | .ok cols' => readRows float headings idCol n k (readline src).2 cols'

/-- One box line, _lammps.py:63-71: `float(words[1]) - float(words[0])`. (The code reads the three
lines before converting any; a failure has the same effect either way.) -/
def readBound (float : List Char → Option F) (src : List Char) : Except PyErr (F × List Char) :=
  let words := splitWs (readline src).1
  match words[1]? with
  | none => .error .indexError
  | some hi =>
    match float hi with
    | none => .error .valueError
    | some h =>
      match words[0]? with
      | none => .error .indexError
      | some lo =>
        match float lo with
        | none => .error .valueError
        | some l => .ok (h - l, (readline src).2)

/-- Position of the id column, _lammps.py:80; `none` is ValueError. -/
def idColumn (headings : List (List Char)) : Option Nat := headings.findIdx? (· = "id".toList)

/-- The atoms section, _lammps.py:74-93. -/
def readAtoms (float : List Char → Option F) (timestep : Int) (numAtoms : Int) (box : List F)
    (src : List Char) : Except PyErr (LFrame F × List Char) :=
  let line := (readline src).1
  if hasSub "ITEM: ATOMS".toList line = false then .error .assertionError else
  let headings := (splitOn ' ' (strip line)).drop 2
  match idColumn headings with
  | none => .error .valueError
  | some idCol =>
    if numAtoms < 0 then .error .valueError else
    let n := numAtoms.toNat
    let empty : Dict (List Char) (List (Option F)) :=
      headings.foldl (fun d h => Dict.set d h (List.replicate n none)) []
    match readRows float headings idCol n n (readline src).2 empty with
    | .error e => .error e
    | .ok (cols, rest) => .ok (⟨timestep, box, cols⟩, rest)

/-- The box section, _lammps.py:60-73, then the atoms. -/
def readBox (float : List Char → Option F) (timestep : Int) (numAtoms : Int)
    (src : List Char) : Except PyErr (LFrame F × List Char) :=
  if hasSub "ITEM: BOX BOUNDS".toList (readline src).1 = false then .error .assertionError else
  match readBound float (readline src).2 with
  | .error e => .error e
  | .ok (bx, s1) =>
    match readBound float s1 with
    | .error e => .error e
    | .ok (bY, s2) =>
      match readBound float s2 with
      | .error e => .error e
      | .ok (bz, s3) => readAtoms float timestep numAtoms [bx, bY, bz] s3

/-- The number of atoms section, _lammps.py:55-59, then the rest. -/
def readNum (float : List Char → Option F) (timestep : Int)
    (src : List Char) : Except PyErr (LFrame F × List Char) :=
  if (readline src).1 ≠ "ITEM: NUMBER OF ATOMS\n".toList then .error .assertionError else
  match pyInt (strip (readline (readline src).2).1) with
  | none => .error .valueError
  | some n => readBox float timestep n (readline (readline src).2).2

/-- One turn of the loop for a non-empty first line, _lammps.py:52-93. -/
def readFrame (float : List Char → Option F) (src : List Char) :
    Except PyErr (LFrame F × List Char) :=
  if (readline src).1 ≠ "ITEM: TIMESTEP\n".toList then .error .assertionError else
  match pyInt (strip (readline (readline src).2).1) with
  | none => .error .valueError
  | some t => readNum float t (readline (readline src).2).2

/-- `except AssertionError … raise RuntimeError`, _lammps.py:94-95. -/
def convertErr : PyErr → PyErr
  | .assertionError => .runtimeError
  | e => e

/-- The loop of `parse_lammpstrj`, _lammps.py:46-95, at most `fuel` turns. -/
def parseFuel (float : List Char → Option F) : Nat → List Char → List (LFrame F) × Option PyErr
  | 0, _ => ([], none)
  | fuel + 1, src =>
    if src = [] then ([], none) else
    match readFrame float src with
    | .error e => ([], some (convertErr e))
    | .ok (f, rest) => (f :: (parseFuel float fuel rest).1, (parseFuel float fuel rest).2)

/-- `parse_lammpstrj`, _lammps.py:42-95.  Every turn consumes at least one character, so the fuel
is never used up (`parseFuel_enough`). -/
def parseLammps (float : List Char → Option F) (src : List Char) :
    List (LFrame F) × Option PyErr :=
  parseFuel float (src.length + 1) src

/-- The loop of `read_lammps_trajectory`, _lammps.py:35-39, on the frames of the parser, which ends
with `fe`. -/
def readLoop (stepsMax : Option Int) (fe : Option PyErr) :
    List (LFrame F) → List (List Nat × LFrame F) × Option PyErr
  | [] => ([], fe)
  | f :: fs =>
    if stepsMax.any (fun m => decide (f.timestep > m)) then ([], none)
    else (([0], f) :: (readLoop stepsMax fe fs).1, (readLoop stepsMax fe fs).2)

/-- `read_lammps_trajectory`, _lammps.py:28-39. -/
def readLammps (float : List Char → Option F) (src : List Char) (stepsMax : Option Int) :
    List (List Nat × LFrame F) × Option PyErr :=
  readLoop stepsMax (parseLammps float src).2 (parseLammps float src).1

end Verif.Lammps
