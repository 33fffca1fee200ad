import Verif.Wave.Model
/-!
# Model of the cached `create_wave_vector`, `src/sdanalysis/dynamics/_util.py:22-39`

`functools.lru_cache` keeps the results of the last 128 different arguments and hands out the very same
object again, so the arrays are kept in a list and named by their position.  Simplifications: both
arguments are given by position; real numbers for floats.
-/

namespace Verif.Wave

open Verif.Dynamics (createWaveVector)

/-- The angular resolution given: an `int` or a `float`. -/
inductive Res where
  | int (n : ℤ)
  | float (x : ℝ)

/-- The number, by which arguments are compared: `360 == 360.0`. -/
def Res.value : Res → ℝ
  | .int n => n
  | .float x => x

/-- The body of `create_wave_vector`, lines 35-39: `np.linspace` refuses a `num` that is not an integer
(numpy 1.18) or negative. -/
noncomputable def waveVectorBody (k : ℝ) : Res → Except PyErr (List (ℝ × ℝ))
  | .float _ => .error .typeError
  | .int n => if n < 0 then .error .valueError else .ok (createWaveVector k n.toNat)

/-- The arrays made so far, and the entries of the cache, the one used last first: arguments and the
position of the array. -/
structure Lru where
  arrays : List (List (ℝ × ℝ))
  entries : List ((ℝ × ℝ) × Nat)

/-- Nothing has been called yet. -/
def Lru.empty : Lru := ⟨[], []⟩

open Classical in
/-- A call of `create_wave_vector` with the cache of line 24: which array is returned, or the
exception, which is not cached. -/
noncomputable def Lru.call (s : Lru) (k : ℝ) (r : Res) : Lru × Except PyErr Nat :=
  match s.entries.find? (fun e => decide (e.1 = (k, r.value))) with
  | some e => ({ s with entries := e :: s.entries.filter (fun e' => decide (e'.1 ≠ e.1)) }, .ok e.2)
  | none =>
    match waveVectorBody k r with
    | .error e => (s, .error e)
    | .ok v => (⟨s.arrays ++ [v], (((k, r.value), s.arrays.length) :: s.entries).take 128⟩,
        .ok s.arrays.length)

/-- What a program does: calls the function, or changes an array that it was given. -/
inductive Op where
  | call (k : ℝ) (r : Res)
  | write (a : Nat) (v : List (ℝ × ℝ))

/-- The state after an operation. -/
noncomputable def Lru.step (s : Lru) : Op → Lru
  | .call k r => (s.call k r).1
  | .write a v => { s with arrays := s.arrays.set a v }

/-- The state after some operations. -/
noncomputable def Lru.run (s : Lru) (ops : List Op) : Lru := ops.foldl Lru.step s

/-- What the caller of `create_wave_vector(k, r)` sees. -/
noncomputable def Lru.result (s : Lru) (k : ℝ) (r : Res) : Except PyErr (Option (List (ℝ × ℝ))) :=
  (s.call k r).2.map (fun a => (s.call k r).1.arrays[a]?)

end Verif.Wave
