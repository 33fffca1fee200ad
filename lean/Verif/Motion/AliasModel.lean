import Verif.Motion.Model
/-!
# `TrackedMotion` with its arrays as objects, `src/sdanalysis/dynamics/_util.py:89-156`

`Model.lean` passes arrays by value.  In Python an array is an object: `TrackedMotion` keeps the
arrays it is given (lines 123, 128, 155, 156), its own arrays are changed in place (lines 149 and
151), and `Dynamics.delta_translation` and `delta_rotation` (dynamics.py:136-142) hand them out.
Here a memory says what is in each array.
Simplification: two different arrays do not share memory (numpy views are left out).
-/

namespace Verif.Motion

/-- What is in the arrays of rows of three and in the arrays of quaternions. -/
structure Memory where
  vec : ℕ → List V3
  quat : ℕ → List Quat

/-- Put a value in the array `a`. -/
def Memory.setVec (h : Memory) (a : ℕ) (v : List V3) : Memory :=
  { h with vec := fun b => if b = a then v else h.vec b }

/-- Put a value in the array of quaternions `a`. -/
def Memory.setQuat (h : Memory) (a : ℕ) (v : List Quat) : Memory :=
  { h with quat := fun b => if b = a then v else h.quat b }

/-- A `TrackedMotion` object, lines 98-106: which arrays it holds. -/
structure Held where
  box : Box
  deltaT : ℕ
  deltaR : ℕ
  prevPos : ℕ
  prevOri : Option ℕ

/-- What the object reads from its arrays. -/
def Held.value (m : Held) (h : Memory) : Tracked :=
  ⟨m.box, h.vec m.deltaT, h.vec m.deltaR, h.vec m.prevPos, m.prevOri.map h.quat⟩

/-- `TrackedMotion.__init__`, lines 108-131, when the new arrays of zeros are `aT` and `aR`. -/
def Held.new (h : Memory) (box : Box) (position : ℕ) (orientation : Option ℕ) (aT aR : ℕ) :
    Memory × Except PyErr Held :=
  let h1 := h.setVec aT ((h.vec position).map (fun _ => 0))
  let h2 := h1.setVec aR ((h1.vec position).map (fun _ => 0))
  match orientation with
  | some o =>
    if (h2.quat o).length = 0 then (h2, .error .runtimeError)
    else (h2, .ok ⟨box, aT, aR, position, some o⟩)
  | none => (h2, .ok ⟨box, aT, aR, position, none⟩)

/-- `TrackedMotion.add`, lines 133-156, on arrays: `-=` and `+=` change the arrays of the object,
and the arrays of the frame are kept. -/
noncomputable def Held.add (m : Held) (h : Memory) (position : ℕ) (orientation : Option ℕ) :
    Memory × Held × Option PyErr :=
  match transAdd (m.value h) (h.vec position) with
  | .error e => (h, m, some e)
  | .ok dT =>
    let h1 := h.setVec m.deltaT dT
    match rotAdd (m.value h1) (orientation.map h1.quat) with
    | .error e => (h1, m, some e)
    | .ok dR =>
      (h1.setVec m.deltaR dR, { m with prevPos := position, prevOri := orientation }, none)

/-- What a program does between the construction and the end: put something in one of its own
arrays, or add a frame (dynamics.py:160). -/
inductive Cmd where
  | write (a : ℕ) (v : List V3)
  | writeQ (a : ℕ) (v : List Quat)
  | add (position : ℕ) (orientation : Option ℕ)

/-- Run the program on the object; stops at the first exception. -/
noncomputable def runHeld : Memory → Held → List Cmd → Memory × Held × Option PyErr
  | h, m, [] => (h, m, none)
  | h, m, .write a v :: cs => runHeld (h.setVec a v) m cs
  | h, m, .writeQ a v :: cs => runHeld (h.setQuat a v) m cs
  | h, m, .add p o :: cs =>
    match m.add h p o with
    | (h', m', some e) => (h', m', some e)
    | (h', m', none) => runHeld h' m' cs

end Verif.Motion
