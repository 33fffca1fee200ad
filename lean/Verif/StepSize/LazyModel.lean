import Verif.StepSize.Model
/-!
# `src/sdanalysis/StepSize.py` as it runs: generators that are asked for one value at a time

`Model.lean` represents a generator by the list of the values it will still produce.  Here the
generators are the small machines that Python runs, with their local variables, and every
function that asks a generator for a value takes a number of turns (`fuel`): `none` means that
the call is still running after so many turns.  A call that is still running for every number of
turns never comes back.
-/

namespace Verif.StepSize

/-- Where the generator `exp_sequence` stands, StepSize.py:78-90: before its first `yield`, or in
the `while True` loop with the position `i` of the `for` loop and the local variables
`curr_step` and `step_size`. -/
inductive Pos where
  | start
  | loop (i : Nat) (currStep stepSize : Int)
  deriving DecidableEq, Repr

/-- One turn of `exp_sequence`, StepSize.py:78-90: the first `yield`, or one turn of the `for`
loop, or the end of the `for` loop with the two assignments behind it.  Gives the value yielded,
if any, and the place reached. -/
def Pos.step (start numLinear initialStepSize base : Int) : Pos → Option Int × Pos
  | .start => (some start, .loop 0 start initialStepSize)
  | .loop i currStep stepSize =>
    if (i : Int) < numLinear + 1 then
      if start + i * stepSize > currStep then
        (some (start + i * stepSize), .loop (i + 1) currStep stepSize)
      else (none, .loop (i + 1) currStep stepSize)
    else (none, .loop 0 (start + numLinear * stepSize) (stepSize * base))

/-- A generator object of `generate_steps`, StepSize.py:45-50: its arguments and where its
`exp_sequence` stands; `none` once it has yielded `total_steps`. -/
structure Gen where
  total : Int
  numLinear : Int
  start : Int
  pos : Option Pos
  deriving DecidableEq, Repr

/-- `generate_steps(total, num_linear, start)`, StepSize.py:18-50: nothing is run yet. -/
def Gen.new (total numLinear start : Int) : Gen := { total, numLinear, start, pos := some .start }

/-- `next(generator)`, StepSize.py:45-50, for at most `fuel` turns of `exp_sequence`: `none` while
it is still running, `some (none, _)` for StopIteration.  `takewhile` drops the first value that
is not below `total_steps`, and `total_steps` is yielded instead. -/
def Gen.next : (fuel : Nat) → Gen → Option (Option Int × Gen)
  | 0, _ => none
  | fuel + 1, g =>
    match g.pos with
    | none => some (none, g)
    | some p =>
      match p.step g.start g.numLinear 1 10 with
      | (none, p') => Gen.next fuel { g with pos := some p' }
      | (some x, p') =>
        if x < g.total then some (some x, { g with pos := some p' })
        else some (some g.total, { g with pos := none })

/-- The state of a `GenerateStepSeries`, StepSize.py:94-113, with its generator objects.  As in
`Series`, generators are kept by index, and the queue in no particular order. -/
structure LazySeries where
  total : Int
  numLinear : Int
  genSteps : Int
  maxGen : Int
  currStep : Int
  iters : List Gen
  values : Dict Int (List Nat)
  queue : List Int
  deriving DecidableEq, Repr

/-- `_enqueue`, StepSize.py:115-127. -/
def LazySeries.enqueue (s : LazySeries) (fuel : Nat) (i : Nat) : Option LazySeries :=
  match s.iters[i]? with
  | none => some s       -- not reachable: entries only name existing generators
  | some g =>
    match g.next fuel with
    | none => none
    | some (none, g') => some { s with iters := s.iters.set i g' }
    | some (some step, g') =>
      match s.values.get? step with
      | some temp =>
        some { s with iters := s.iters.set i g', values := s.values.set step (temp ++ [i]) }
      | none =>
        some { s with iters := s.iters.set i g', values := s.values.set step [i],
                      queue := s.queue ++ [step] }

/-- `_add_generator`, StepSize.py:129-133. -/
def LazySeries.addGenerator (s : LazySeries) (fuel : Nat) : Option LazySeries :=
  LazySeries.enqueue
    { s with iters := s.iters ++ [Gen.new s.total s.numLinear s.currStep] } fuel s.iters.length

/-- `__init__`, StepSize.py:97-113. -/
def LazySeries.init (total numLinear genSteps maxGen : Int) (fuel : Nat) : Option LazySeries :=
  LazySeries.addGenerator
    { total, numLinear, genSteps, maxGen, currStep := 0, iters := [], values := [], queue := [] }
    fuel

/-- The loop over the live list `values[curr_step]`, StepSize.py:159-160, for at most `turns`
turns. -/
def LazySeries.enqueueAll (fuel : Nat) : (turns : Nat) → LazySeries → Nat → Option LazySeries
  | 0, _, _ => none
  | turns + 1, s, j =>
    match ((s.values.get? s.currStep).getD [])[j]? with
    | none => some s
    | some i =>
      match s.enqueue fuel i with
      | none => none
      | some s' => LazySeries.enqueueAll fuel turns s' (j + 1)

/-- Cleanup from the previous step, StepSize.py:147-150. -/
def LazySeries.cleanup (s : LazySeries) (previous : Int) : Except PyErr LazySeries :=
  if s.currStep ≠ previous then
    match s.values.del previous with
    | .error e => .error e
    | .ok values => .ok { s with values := values }
  else .ok s

/-- Check for new indexes, StepSize.py:152-154 (`curr_step % gen_steps` raises for 0). -/
def LazySeries.checkNew (s : LazySeries) (fuel : Nat) : Option (Except PyErr LazySeries) :=
  if s.genSteps = 0 then some (.error .zeroDivisionError)
  else if s.currStep % s.genSteps = 0 ∧ s.currStep > 0 then
    if (s.iters.length : Int) < s.maxGen then (s.addGenerator fuel).map .ok else some (.ok s)
  else some (.ok s)

/-- `__next__`, StepSize.py:138-163: `none` while it is still running. -/
def LazySeries.next (s : LazySeries) (fuel : Nat) : Option (Except PyErr (Int × LazySeries)) :=
  match minimum s.queue with
  | none => some (.error .stopIteration)
  | some curr =>
    match LazySeries.cleanup { s with currStep := curr, queue := s.queue.erase curr }
        s.currStep with
    | .error e => some (.error e)
    | .ok s1 =>
      match s1.checkNew fuel with
      | none => none
      | some (.error e) => some (.error e)
      | some (.ok s2) =>
        -- Get list of indexes
        match s2.values.get? curr with
        | none => some (.error .assertionError)
        | some _ => (LazySeries.enqueueAll fuel fuel s2 0).map (fun s3 => .ok (curr, s3))

/-- `get_index`, StepSize.py:165-167. -/
def LazySeries.getIndex (s : LazySeries) : List Nat := (s.values.get? s.currStep).getD []

end Verif.StepSize
