import Verif.StepSize.Model
/-!
# Model of `src/sdanalysis/read/_gsd.py` and of `open_trajectory` in `read/_read.py`

A gsd file is the list of the results of reading each frame: a frame, or the exception raised.
A generator is represented by the list of the values it yields together with how it ends
(`none`: it returns; `some e`: it raises `e`).  Values are yielded in order and computed from
immutable inputs, so laziness is not observable, except for the sharing of the index list in
the linear reader which is modelled separately (`linearFinal`).
Simplification: timesteps are Python integers (gsd stores them as unsigned 64 bit integers).
-/

namespace Verif.Gsd

open Verif.StepSize (seriesList Series)

/-- A frame: its timestep and everything else. -/
structure GFrame (α : Type) where
  timestep : Int
  data : α
  deriving DecidableEq, Repr

/-- The result of reading one frame of the file. -/
abbrev Raw (α : Type) := Except PyErr (GFrame α)

variable {α : Type}

/-- `iter_trajectory`, _gsd.py:31-52: frames raising RuntimeError are dropped, any other
exception ends the generator. -/
def iterTrajectory : List (Raw α) → List (GFrame α) × Option PyErr
  | [] => ([], none)
  | .ok f :: rest => (f :: (iterTrajectory rest).1, (iterTrajectory rest).2)
  | .error .runtimeError :: rest => iterTrajectory rest
  | .error e :: _ => ([], some e)

/-- Python `trajectory[-i]` for `i ≥ 1`: `none` is IndexError. -/
def fromEnd (raws : List (Raw α)) (i : Nat) : Option (Raw α) :=
  if i ≤ raws.length then raws[raws.length - i]? else none

/-- The retry loop of `_get_num_steps`, _gsd.py:73-81, with `frame_index = -i`. -/
def numStepsLoop (raws : List (Raw α)) : (retries : Nat) → (i : Nat) → Except PyErr Int
  | 0, _ => .error .runtimeError
  | r + 1, i =>
    match fromEnd raws i with
    | none => .error .indexError
    | some (.ok f) => .ok f.timestep
    | some (.error .runtimeError) => numStepsLoop raws r (i + 1)
    | some (.error e) => .error e

/-- `_get_num_steps`, _gsd.py:55-88. -/
def getNumSteps (raws : List (Raw α)) : Except PyErr Int := numStepsLoop raws 10 1

/-- Update of the keyframe index list in the linear reader, _gsd.py:104-108. -/
def updateIndex (interval kmax t : Int) (indexList : List Nat) : List Nat :=
  if t % interval = 0 ∧ (indexList.length : Int) ≤ kmax then indexList ++ [indexList.length]
  else indexList

/-- `_gsd_linear_trajectory`, _gsd.py:91-116, from the current index list, on the frames of
`iter_trajectory` which ends with `fe`.  The value of the index list at the time of the yield is
recorded. -/
def linearReader (stepsMax : Option Int) (interval kmax : Int) (fe : Option PyErr) :
    List (GFrame α) → List Nat → List (List Nat × GFrame α) × Option PyErr
  | [], _ => ([], fe)
  | f :: fs, indexList =>
    if interval = 0 then ([], some .zeroDivisionError) else
    let il := updateIndex interval kmax f.timestep indexList
    if stepsMax.any (fun m => decide (f.timestep > m)) then ([], none)
    else
      let (out, e) := linearReader stepsMax interval kmax fe fs il
      ((il, f) :: out, e)

/-- The index list object at the end of the iteration: the linear reader yields the *same* list
object each time and goes on appending to it, _gsd.py:108, 115. -/
def linearFinal (stepsMax : Option Int) (interval kmax : Int) :
    List (GFrame α) → List Nat → List Nat
  | [], indexList => indexList
  | f :: fs, indexList =>
    if interval = 0 then indexList else
    let il := updateIndex interval kmax f.timestep indexList
    if stepsMax.any (fun m => decide (f.timestep > m)) then il
    else linearFinal stepsMax interval kmax fs il

/-- The inner loop `while curr_step < frame.timestep: curr_step = next(step_iter)`,
_gsd.py:174-178; `none` when the step iterator is exhausted. -/
def catchSteps (t : Int) (cur : Int × List Nat) :
    List (Int × List Nat) → Option ((Int × List Nat) × List (Int × List Nat))
  | [] => if cur.1 < t then none else some (cur, [])
  | s :: ss => if cur.1 < t then catchSteps t s ss else some (cur, s :: ss)

/-- The end of a turn of the main loop, _gsd.py:181-185: stop beyond `steps_max`, yield if the
step and the frame agree, continue with `next`. -/
def emit (stepsMax : Int) (cur : Int × List Nat) (f : GFrame α)
    (next : List (List Nat × GFrame α) × Option PyErr) :
    List (List Nat × GFrame α) × Option PyErr :=
  if cur.1 > stepsMax then ([], none)
  else if cur.1 = f.timestep then ((cur.2, f) :: next.1, next.2)
  else next

mutual
/-- The main loop of `_gsd_exponential_trajectory`, _gsd.py:141-185.  The frames come from
`iter_trajectory`, which ends with `fe`; the step iterator is the list of the steps it will
produce with the `get_index()` answer after each (it then raises StopIteration, C05). -/
def expReader (stepsMax : Int) (fe : Option PyErr) :
    List (GFrame α) → List (Int × List Nat) → List (List Nat × GFrame α) × Option PyErr
  | [], _ => ([], fe)
  | _ :: _, [] => ([], none)
  | f :: fs, cur :: ss =>
    if cur.1 > f.timestep then catchFrames stepsMax fe cur fs ss
    else if cur.1 < f.timestep then
      match catchSteps f.timestep cur ss with
      | none => ([], none)
      | some (cur', ss') => emit stepsMax cur' f (expReader stepsMax fe fs ss')
    else emit stepsMax cur f (expReader stepsMax fe fs ss)

/-- The inner loop `while frame.timestep < curr_step: frame = next(traj_iter)`, _gsd.py:158-162,
followed by the rest of the turn. -/
def catchFrames (stepsMax : Int) (fe : Option PyErr) (cur : Int × List Nat) :
    List (GFrame α) → List (Int × List Nat) → List (List Nat × GFrame α) × Option PyErr
  | [], _ => ([], fe)
  | f :: fs, ss =>
    if f.timestep < cur.1 then catchFrames stepsMax fe cur fs ss
    else emit stepsMax cur f (expReader stepsMax fe fs ss)
end

/-- The number of steps in the file, _gsd.py:130-131. -/
def stepsToRead (raws : List (Raw α)) : Option Int → Except PyErr Int
  | some m => .ok m
  | none => getNumSteps raws

/-- `_gsd_exponential_trajectory`, _gsd.py:119-185, for `linear_steps ≥ 1`,
`keyframe_interval ≥ 1` and a non-negative number of steps. -/
def gsdExponential (raws : List (Raw α)) (stepsMax : Option Int) (interval kmax linear : Int) :
    List (List Nat × GFrame α) × Option PyErr :=
  match stepsToRead raws stepsMax with
  | .error e => ([], some e)
  | .ok m =>
    let (frames, fe) := iterTrajectory raws
    expReader m fe frames (seriesList m linear interval kmax)

/-- `_gsd_linear_trajectory`, _gsd.py:91-116. -/
def gsdLinear (raws : List (Raw α)) (stepsMax : Option Int) (interval kmax : Int) :
    List (List Nat × GFrame α) × Option PyErr :=
  let (frames, fe) := iterTrajectory raws
  linearReader stepsMax interval kmax fe frames []

/-- `read_gsd_trajectory`, _gsd.py:192-209. -/
def readGsd (raws : List (Raw α)) (stepsMax linear : Option Int) (interval kmax : Int) :
    List (List Nat × GFrame α) × Option PyErr :=
  match linear with
  | none => gsdLinear raws stepsMax interval kmax
  | some l => gsdExponential raws stepsMax interval kmax l

/-- The value of the `progressbar` argument of `open_trajectory`. -/
inductive Progress where
  | none | true | notebook | other
  deriving DecidableEq

/-- `range(0, n, k)`, for `k ≥ 1`. -/
def rangeStep (n k : Nat) : List Nat := (List.range n).filter (fun i => decide (i % k = 0))

/-- `open_trajectory` for a gsd file, _read.py:217-237, from the positions to visit. -/
def openLoop (raws : List (Raw α)) : List Nat → List (GFrame α) × Option PyErr
  | [] => ([], none)
  | i :: is =>
    match raws[i]? with
    | none => ([], some .indexError)
    | some (.ok f) => (f :: (openLoop raws is).1, (openLoop raws is).2)
    | some (.error .runtimeError) => openLoop raws is
    | some (.error e) => ([], some e)

/-- `open_trajectory(filename, progressbar, frame_interval)` for a `.gsd` file, _read.py:198-237:
`range` raises ValueError for a zero step and is empty for a negative one. -/
def openGsd (raws : List (Raw α)) (bar : Progress) (interval : Int) :
    List (GFrame α) × Option PyErr :=
  if bar = .other then ([], some .valueError)
  else if interval = 0 then ([], some .valueError)
  else if interval < 0 then ([], none)
  else openLoop raws (rangeStep raws.length interval.toNat)

/-- `open_trajectory` for a `.lammpstrj` file, _read.py:238-241: the frames of the parser; the
progress bar and the frame interval are not looked at. -/
def openLammps (frames : List (GFrame α)) (fe : Option PyErr) (_bar : Progress) (_interval : Int) :
    List (GFrame α) × Option PyErr :=
  (frames, fe)

end Verif.Gsd
