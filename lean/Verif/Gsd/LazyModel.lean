import Verif.Gsd.Model
import Verif.StepSize.LazyModel
/-!
# `_gsd_exponential_trajectory` as it runs: steps are asked for one at a time

The main loop of `expReader` in `Model.lean` works on the list of the steps.  Here it holds the
step series as an object and calls `next(step_iter)` when the source does, for at most `fuel`
turns a call.  What is known after so many turns is the list of the frames yielded so far, and
whether the generator has returned, has raised, or is still running.
-/

namespace Verif.Gsd

open Verif.StepSize (LazySeries)

variable {α : Type}

/-- How far a generator has come. -/
inductive Ending where
  | returned
  | raised (e : PyErr)
  | running
  deriving DecidableEq, Repr

/-- The end of a generator of the list model. -/
def Ending.of : Option PyErr → Ending
  | none => .returned
  | some e => .raised e

/-- `next(step_iter)` inside the reader, _gsd.py:143-147 and 175-178: StopIteration makes the
reader return, anything else goes through it. -/
def lazyStep (fuel : Nat) (s : LazySeries) : Except Ending (Int × LazySeries) :=
  match s.next fuel with
  | none => .error .running
  | some (.error .stopIteration) => .error .returned
  | some (.error e) => .error (.raised e)
  | some (.ok r) => .ok r

/-- The inner loop `while curr_step < frame.timestep: curr_step = next(step_iter)`,
_gsd.py:174-178, for at most `turns` turns. -/
def lazyCatch (fuel : Nat) (t : Int) : (turns : Nat) → Int → LazySeries →
    Except Ending (Int × LazySeries)
  | 0, _, _ => .error .running
  | turns + 1, cur, s =>
    if cur < t then
      match lazyStep fuel s with
      | .error e => .error e
      | .ok (x, s') => lazyCatch fuel t turns x s'
    else .ok (cur, s)

/-- The end of a turn of the main loop, _gsd.py:181-185. -/
def lazyEmit (stepsMax cur : Int) (index : List Nat) (f : GFrame α)
    (next : List (List Nat × GFrame α) × Ending) : List (List Nat × GFrame α) × Ending :=
  if cur > stepsMax then ([], .returned)
  else if cur = f.timestep then ((index, f) :: next.1, next.2)
  else next

mutual
/-- The main loop of `_gsd_exponential_trajectory`, _gsd.py:141-185, on the frames that
`iter_trajectory` will give before it ends with `fe`. -/
def lazyReader (fuel : Nat) (stepsMax : Int) (fe : Ending) :
    List (GFrame α) → LazySeries → List (List Nat × GFrame α) × Ending
  | [], _ => ([], fe)
  | f :: fs, s =>
    match lazyStep fuel s with
    | .error e => ([], e)
    | .ok (cur, s') =>
      if cur > f.timestep then lazyFrames fuel stepsMax fe cur s' fs
      else if cur < f.timestep then
        match lazyCatch fuel f.timestep fuel cur s' with
        | .error e => ([], e)
        | .ok (cur', s'') =>
          lazyEmit stepsMax cur' s''.getIndex f (lazyReader fuel stepsMax fe fs s'')
      else lazyEmit stepsMax cur s'.getIndex f (lazyReader fuel stepsMax fe fs s')

/-- The inner loop `while frame.timestep < curr_step: frame = next(traj_iter)`, _gsd.py:158-162,
followed by the rest of the turn. -/
def lazyFrames (fuel : Nat) (stepsMax : Int) (fe : Ending) (cur : Int) (s : LazySeries) :
    List (GFrame α) → List (List Nat × GFrame α) × Ending
  | [] => ([], fe)
  | f :: fs =>
    if f.timestep < cur then lazyFrames fuel stepsMax fe cur s fs
    else lazyEmit stepsMax cur s.getIndex f (lazyReader fuel stepsMax fe fs s)
end

/-- `_gsd_exponential_trajectory`, _gsd.py:119-185, for all integers, as far as it has come after
`fuel` turns a loop. -/
def lazyExponential (fuel : Nat) (raws : List (Raw α)) (stepsMax : Option Int)
    (interval kmax linear : Int) : List (List Nat × GFrame α) × Ending :=
  match stepsToRead raws stepsMax with
  | .error e => ([], .raised e)
  | .ok m =>
    match LazySeries.init m linear interval kmax fuel with
    | none => ([], .running)
    | some s => lazyReader fuel m (Ending.of (iterTrajectory raws).2) (iterTrajectory raws).1 s

end Verif.Gsd
