import Mathlib.Data.Int.Log
import Mathlib.Algebra.Order.Archimedean.Real.Basic
/-!
# Floating point numbers of numpy

Elsewhere in the model floats are exact.  Here the numbers of `np.float32` and of Python's `float`
are rounded after every operation, to the nearest number of the format and to the even one of two.
Simplification: there is no largest number (overflow) and no signed zero.
-/

namespace Verif.Rounding

/-- A binary floating point format: the number of digits and the exponent of the smallest
positive number. -/
structure Format where
  digits : ℕ
  emin : ℤ

/-- `np.float32`: the type of the columns read from a lammps file (_lammps.py:83), of the positions
of a frame (frame.py:82, and those stored in gsd files) and hence of the displacements
(dynamics/_util.py:124-125, `np.zeros_like(position)`). -/
def float32 : Format := ⟨24, -149⟩

/-- Python's `float`, `np.float64`: what `float(val)` gives in _lammps.py:67-69, 90. -/
def float64 : Format := ⟨53, -1074⟩

/-- Rounding to the nearest integer, to the even one of two. -/
noncomputable def roundEven (x : ℝ) : ℤ :=
  if x - ⌊x⌋ < 1 / 2 then ⌊x⌋
  else if 1 / 2 < x - ⌊x⌋ then ⌊x⌋ + 1
  else if ⌊x⌋ % 2 = 0 then ⌊x⌋ else ⌊x⌋ + 1

/-- The exponent of the last digit of a number of the size of `x`. -/
noncomputable def Format.exp (F : Format) (x : ℝ) : ℤ :=
  max (Int.log 2 |x| - (F.digits - 1)) F.emin

/-- The result of an operation whose exact result is `x`. -/
noncomputable def Format.fl (F : Format) (x : ℝ) : ℝ :=
  roundEven (x / 2 ^ F.exp x) * 2 ^ F.exp x

end Verif.Rounding
