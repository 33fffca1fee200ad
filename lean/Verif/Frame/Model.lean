import Verif.Lammps.Model
import Verif.Motion.Model
/-!
# Model of `src/sdanalysis/frame.py`

`HoomdFrame` wraps a gsd or hoomd snapshot, `LammpsFrame` the dictionary of the lammps reader.
Simplification: float32 rounding is ignored; `snapshot.particles` has all attributes except
possibly `body` and `image`, as gsd and hoomd provide them.
-/

namespace Verif.Frame

open Verif.Motion (V3 Quat Box createFreudBox)

/-- How numpy adds 1 to an entry of the `body` array: with a wider integer (numpy < 2), or in the
unsigned or signed 32 bit type of the array (numpy ≥ 2).  The result of a 32 bit addition is
reduced modulo 2³². -/
inductive Arith where
  | wide
  | uint32
  | int32
  deriving DecidableEq

/-- `b + 1`. -/
def Arith.succ : Arith → Int → Int
  | .wide, b => b + 1
  | .uint32, b => (b + 1) % 4294967296
  | .int32, b => (b + 1 + 2147483648) % 4294967296 - 2147483648

/-- Builtin `max` of a sequence; `none` is ValueError (empty sequence). -/
def pyMax : List Int → Option Int
  | [] => none
  | b :: bs => some (bs.foldl (fun a c => if c > a then c else a) b)

/-- The box of a snapshot: an attribute `box` with named entries (hoomd), or an array in
`configuration` (gsd). -/
inductive SnapBox where
  | hoomd (Lx Ly Lz xy xz yz : ℝ) (dimensions : Int)
  | gsd (box : List ℝ) (dimensions : Int)

/-- `gsd.hoomd.Snapshot`.  `body` is `none` when the attribute is missing or `None`. -/
structure Snapshot where
  N : Int
  body : Option (List Int)
  position : List V3
  orientation : List Quat
  image : Option (List (Int × Int × Int))
  step : Int
  box : SnapBox

/-- frame.py:138-142: `max(body) + 1`, or `N` when that fails. -/
def rawNumMols (a : Arith) (s : Snapshot) : Int :=
  match s.body with
  | none => s.N
  | some l =>
    match pyMax l with
    | none => s.N
    | some m => a.succ m

/-- frame.py:144-147. -/
def clampNumMols (n N : Int) : Int := if n > N then N else if n = 0 then N else n

/-- `HoomdFrame._get_num_bodies`, frame.py:136-156. -/
def getNumBodies (a : Arith) (s : Snapshot) : Except PyErr Int :=
  let n := clampNumMols (rawNumMols a s) s.N
  if n > s.N then .error .valueError
  else if n > s.position.length then .error .valueError
  else .ok n

/-- `xs[:n]`: a negative `n` counts from the end. -/
def sliceTo {α : Type} (xs : List α) (n : Int) : List α :=
  if 0 ≤ n then xs.take n.toNat else xs.take (xs.length - (-n).toNat)

/-- What the users of a `Frame` see: the properties of frame.py:21-72.  `len` is `__len__`. -/
structure View where
  position : List V3
  x : List ℝ
  y : List ℝ
  z : List ℝ
  orientation : List Quat
  image : Option (List (Int × Int × Int))
  timestep : Int
  box : List ℝ
  dimensions : Int
  len : Int

/-- `HoomdFrame.box`, frame.py:190-196. -/
def SnapBox.array : SnapBox → List ℝ
  | .hoomd Lx Ly Lz xy xz yz _ => [Lx, Ly, Lz, xy, xz, yz]
  | .gsd b _ => b

/-- `HoomdFrame.dimensions`, frame.py:198-202. -/
def SnapBox.dim : SnapBox → Int
  | .hoomd _ _ _ _ _ _ d => d
  | .gsd _ d => d

/-- `HoomdFrame`, frame.py:128-205: construction computes the number of molecules, the properties
are slices of the arrays (`image` is not sliced, frame.py:166-168). -/
def hoomdFrame (a : Arith) (s : Snapshot) : Except PyErr View :=
  match getNumBodies a s with
  | .error e => .error e
  | .ok n => .ok {
      position := sliceTo s.position n
      x := (sliceTo s.position n).map (fun p => p.1)
      y := (sliceTo s.position n).map (fun p => p.2.1)
      z := (sliceTo s.position n).map (fun p => p.2.2)
      orientation := sliceTo s.orientation n
      image := s.image
      timestep := s.step
      box := s.box.array
      dimensions := s.box.dim
      len := n }

/-- `self.frame[name]` for a column of a lammps frame; KeyError when there is none.  An entry that
was never written (see `Verif.Lammps`) reads as the arbitrary number `junk`. -/
def column (junk : ℝ) (f : Lammps.LFrame ℝ) (name : String) : Except PyErr (List ℝ) :=
  match Dict.get? f.cols name.toList with
  | none => .error .keyError
  | some c => .ok (c.map (fun v => v.getD junk))

/-- The loop of `LammpsFrame.box`, frame.py:114-117, from `index` on. -/
def boxLoop : Nat → List ℝ → List ℝ → List ℝ
  | _, [], box => box
  | index, v :: vs, box => if index > 5 then box else boxLoop (index + 1) vs (box.set index v)

/-- `LammpsFrame.box`, frame.py:111-118. -/
def lammpsBox (b : List ℝ) : List ℝ := boxLoop 0 b (List.replicate 6 0)

/-- `np.array([x, y, z]).T`, frame.py:79-83; ValueError unless the lengths agree. -/
def stack (x y z : List ℝ) : Except PyErr (List V3) :=
  if x.length = y.length ∧ y.length = z.length then .ok (x.zip (y.zip z)) else .error .valueError

/-- The properties of `LammpsFrame`, frame.py:75-125, given its columns and `position`. -/
noncomputable def lammpsView (f : Lammps.LFrame ℝ) (p : List V3) (x y z : List ℝ) : View where
  position := p
  x := x
  y := y
  z := z
  orientation := List.replicate x.length 1
  image := none
  timestep := f.timestep
  box := lammpsBox f.box
  dimensions := 2
  len := x.length

/-- `LammpsFrame`, frame.py:75-125, with all its properties read. -/
noncomputable def lammpsFrame (junk : ℝ) (f : Lammps.LFrame ℝ) : Except PyErr View :=
  match column junk f "x" with
  | .error e => .error e
  | .ok x =>
    match column junk f "y" with
    | .error e => .error e
    | .ok y =>
      match column junk f "z" with
      | .error e => .error e
      | .ok z =>
        match stack x y z with
        | .error e => .error e
        | .ok p => .ok (lammpsView f p x y z)

/-- `Frame.freud_box`, frame.py:71-72. -/
def freudBox (v : View) : Except PyErr Box := createFreudBox v.box (v.dimensions = 2)

end Verif.Frame
