import Verif.Py
/-!
# Model of `src/sdanalysis/StepSize.py`

Python generators are represented by the list of the values they will still produce.
`exp_sequence` is infinite, so it is represented by the list of values produced during the
first `n` passes of its `while True` loop, for every `n`.
-/

namespace Verif.StepSize

/-- One pass of the `for` loop of `exp_sequence`, StepSize.py:84-86:
`for step in (start + i*step_size for i in range(num_linear+1)): if step > curr_step: yield step`.
The list of values yielded in that pass. -/
def expPass (start numLinear currStep stepSize : Int) : List Int :=
  ((pyRange (numLinear + 1)).map (fun i => start + i * stepSize)).filter
    (fun step => decide (step > currStep))

/-- The first `n` passes of the `while True` loop, StepSize.py:83-90, from the local state
`(curr_step, step_size)`. -/
def expLoop (start numLinear base : Int) : Nat → Int → Int → List Int
  | 0, _, _ => []
  | n + 1, currStep, stepSize =>
    expPass start numLinear currStep stepSize ++
      expLoop start numLinear base n (start + numLinear * stepSize) (stepSize * base)

/-- `exp_sequence(start, num_linear, initial_step_size, base)`, StepSize.py:53-90: the values
yielded before the loop and during its first `n` passes. -/
def expSequence (start numLinear initialStepSize base : Int) (n : Nat) : List Int :=
  start :: expLoop start numLinear base n start initialStepSize

/-- `generate_steps(total, num_linear, start)`, StepSize.py:18-50, observed for `n` passes of
the loop of `exp_sequence`: `some` of the complete output when `takewhile` has met a value
`≥ total` by then, `none` while the generator is still looking for one.
Simplification: `takewhile` is evaluated on the finite prefix. -/
def runSteps (total numLinear start : Int) (n : Nat) : Option (List Int) :=
  let seq := expSequence start numLinear 1 10 n
  if seq.any (fun x => decide (¬ x < total)) then
    some (seq.takeWhile (fun x => decide (x < total)) ++ [total])
  else
    none

/-- Number of passes after which `generate_steps` has certainly met a value `≥ total`
(for `num_linear ≥ 1`; proved as `runSteps_enough`). -/
def enough (total start : Int) : Nat := (total - start).toNat.log2 + 2

/-- The complete output of `generate_steps(total, num_linear, start)`, StepSize.py:18-50, for
`num_linear ≥ 1`.  For `num_linear ≤ 0` and `start < total` the Python generator never gets
beyond its first value (theorem `C04_generate_steps_hangs`), and this definition does not
describe it. -/
def generateSteps (total numLinear start : Int) : List Int :=
  (runSteps total numLinear start (enough total start)).getD []

/-- The state of a `GenerateStepSeries`, StepSize.py:94-113.
`iters[i]` is what the generator object of index `i` will still produce: generator objects are
shared by reference in the Python code (`iterindex.iterator`), hence they are kept by index.
`values` maps a step to the list of the indexes of the `iterindex` entries.
`queue` holds the content of the `PriorityQueue` in no particular order. -/
structure Series where
  total : Int
  numLinear : Int
  genSteps : Int
  maxGen : Int
  currStep : Int
  iters : List (List Int)
  values : Dict Int (List Nat)
  queue : List Int
  deriving Repr, DecidableEq

/-- `self._num_generators`: every generator ever created has its own index. -/
def Series.numGenerators (s : Series) : Int := s.iters.length

/-- `_enqueue`, StepSize.py:115-127. -/
def Series.enqueue (s : Series) (i : Nat) : Series :=
  match s.iters[i]? with
  | none => s            -- not reachable: entries only name existing generators
  | some [] => s         -- StopIteration: return
  | some (step :: rest) =>
    let s := { s with iters := s.iters.set i rest }
    match s.values.get? step with
    | some temp => { s with values := s.values.set step (temp ++ [i]) }
    | none => { s with values := s.values.set step [i], queue := s.queue ++ [step] }

/-- `_add_generator`, StepSize.py:129-133. -/
def Series.addGenerator (s : Series) : Series :=
  let i := s.iters.length
  Series.enqueue
    { s with iters := s.iters ++ [generateSteps s.total s.numLinear s.currStep] } i

/-- `__init__`, StepSize.py:97-113. -/
def Series.init (total numLinear genSteps maxGen : Int) : Series :=
  Series.addGenerator
    { total, numLinear, genSteps, maxGen, currStep := 0, iters := [], values := [], queue := [] }

/-- Smallest element of a list (what `PriorityQueue.get` returns). -/
def minimum : List Int → Option Int
  | [] => none
  | x :: xs => match minimum xs with
    | none => some x
    | some m => some (if x ≤ m then x else m)

/-- The `for iindex in iterindexes: self._enqueue(iindex)` loop, StepSize.py:159-160.  Python
iterates over the live list `values[curr_step]` by position, so does this definition; `fuel`
bounds the number of turns. -/
def Series.enqueueAll (s : Series) : (fuel : Nat) → (j : Nat) → Series
  | 0, _ => s
  | fuel + 1, j =>
    match ((s.values.get? s.currStep).getD [])[j]? with
    | none => s
    | some i => Series.enqueueAll (s.enqueue i) fuel (j + 1)

/-- A number of turns that the loop over `values[curr_step]` cannot exceed: each turn either is
over an entry present at the beginning or over one appended by a previous turn, which consumed
one value of a generator. -/
def Series.turns (s : Series) : Nat :=
  ((s.values.get? s.currStep).getD []).length + s.iters.flatten.length + 1

/-- Cleanup from the previous step, StepSize.py:147-150. -/
def Series.cleanup (s : Series) (previous : Int) : Except PyErr Series :=
  if s.currStep ≠ previous then
    match s.values.del previous with
    | .error e => .error e
    | .ok values => .ok { s with values := values }
  else .ok s

/-- Check for new indexes, StepSize.py:152-154 (`curr_step % gen_steps` raises for 0). -/
def Series.checkNew (s : Series) : Except PyErr Series :=
  if s.genSteps = 0 then .error .zeroDivisionError
  else if s.currStep % s.genSteps = 0 ∧ s.currStep > 0 then
    if s.numGenerators < s.maxGen then .ok s.addGenerator else .ok s
  else .ok s

/-- `__next__`, StepSize.py:138-163. -/
def Series.next (s : Series) : Except PyErr (Int × Series) :=
  match minimum s.queue with
  | none => .error .stopIteration
  | some curr =>
    match Series.cleanup { s with currStep := curr, queue := s.queue.erase curr } s.currStep with
    | .error e => .error e
    | .ok s1 =>
      match s1.checkNew with
      | .error e => .error e
      | .ok s2 =>
        -- Get list of indexes
        match s2.values.get? curr with
        | none => .error .assertionError
        | some _ => .ok (curr, s2.enqueueAll s2.turns 0)

/-- `get_index`, StepSize.py:165-167. -/
def Series.getIndex (s : Series) : List Nat := (s.values.get? s.currStep).getD []

/-- `fuel` calls of `next()`: the produced steps with the answer of `get_index()` after each,
how the iteration ended (`none`: not ended yet), and the state reached. -/
def Series.run (s : Series) : Nat → List (Int × List Nat) × Option PyErr × Series
  | 0 => ([], none, s)
  | fuel + 1 =>
    match s.next with
    | .error e => ([], some e, s)
    | .ok (x, s') =>
      let (out, e, s'') := s'.run fuel
      ((x, s'.getIndex) :: out, e, s'')

/-- Iterating `GenerateStepSeries(total, num_linear, gen_steps, max_gen)` to exhaustion, with the
answer of `get_index()` after each step.  The number of `next` calls allowed suffices
(theorem `C05_series_runs_from_zero_to_total`). -/
def seriesList (total numLinear genSteps maxGen : Int) : List (Int × List Nat) :=
  ((Series.init total numLinear genSteps maxGen).run (total.toNat + 2)).1

end Verif.StepSize
