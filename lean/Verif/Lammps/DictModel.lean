import Verif.Frame.Model
/-!
# The dictionary of a lammps frame

`Verif.Lammps.Model` keeps the columns, the box and the timestep of a frame apart.  In the code they are in one
dictionary, the columns under their headings, `box` and `timestep` assigned last.
-/

namespace Verif.Lammps

variable {F : Type}

/-- A value of the dictionary: a column, the three lengths of the box, or the timestep. -/
inductive Item (F : Type) where
  | column (c : List (Option F))
  | box (b : List F)
  | step (t : Int)
  deriving DecidableEq

/-- The dictionary handed to `LammpsFrame`, _lammps.py:82-93: the columns, then `frame["box"]` (line 91) and
`frame["timestep"]` (line 92). -/
def frameDict (f : LFrame F) : Dict (List Char) (Item F) :=
  Dict.set (Dict.set (f.cols.map (fun p => (p.1, Item.column p.2))) "box".toList (.box f.box))
    "timestep".toList (.step f.timestep)

/-- `self.frame[name]` used as an array of numbers, frame.py:79-99.  An integer is no array: AttributeError.
An entry that was never written reads as the arbitrary number `junk`. -/
def itemColumn (junk : ℝ) (d : Dict (List Char) (Item ℝ)) (name : String) : Except PyErr (List ℝ) :=
  match Dict.get? d name.toList with
  | none => .error .keyError
  | some (.column c) => .ok (c.map (fun v => v.getD junk))
  | some (.box b) => .ok b
  | some (.step _) => .error .attributeError

/-- `LammpsFrame.timestep`, frame.py:107-109, when it is an integer; arrays are not followed (the reader never stores
one there, `C180_kept`). -/
def itemStep (d : Dict (List Char) (Item ℝ)) : Except PyErr Int :=
  match Dict.get? d "timestep".toList with
  | some (.step t) => .ok t
  | some _ => .error .typeError
  | none => .error .keyError

/-- `LammpsFrame`, frame.py:75-125, with all its properties read from the dictionary. -/
noncomputable def dictFrame (junk : ℝ) (d : Dict (List Char) (Item ℝ)) : Except PyErr Frame.View :=
  match itemColumn junk d "x" with
  | .error e => .error e
  | .ok x =>
    match itemColumn junk d "y" with
    | .error e => .error e
    | .ok y =>
      match itemColumn junk d "z" with
      | .error e => .error e
      | .ok z =>
        match Frame.stack x y z with
        | .error e => .error e
        | .ok p =>
          match itemStep d with
          | .error e => .error e
          | .ok t =>
            match itemColumn junk d "box" with
            | .error e => .error e
            | .ok b => .ok {
                position := p
                x := x
                y := y
                z := z
                orientation := List.replicate x.length 1
                image := none
                timestep := t
                box := Frame.lammpsBox b
                dimensions := 2
                len := x.length }

end Verif.Lammps
