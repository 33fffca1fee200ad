import Verif.Dynamics.Model
import Verif.Rounding.Model
/-!
# Where double precision enters: `mobile_overlap`, `src/sdanalysis/dynamics/dynamics.py`
-/

namespace Verif.Rounding

open Verif.Dynamics

/-- `int(len(displacement) * fraction)`, line 440: the product of two floats, then the whole part towards
zero. -/
noncomputable def numElements64 (n : ℕ) (fraction : ℝ) : ℤ :=
  let x := float64.fl (n * fraction)
  if 0 ≤ x then ⌊x⌋ else ⌈x⌉

/-- `mobile_overlap`, lines 431-445, as `Dynamics.mobileOverlap`, with Python floats: the fraction as it is
stored, the number of molecules from its rounded product, and the quotient rounded.  For a fraction that is
not negative. -/
noncomputable def mobileOverlap64 (argsort : List ℝ → List ℕ) (displacement rotation : List ℝ)
    (fraction : ℝ := float64.fl (1 / 10)) : Except PyErr ℝ :=
  let num : ℕ := (numElements64 displacement.length fraction).toNat
  let transOrder := lastN (argsort displacement) num
  let rotOrder := lastN (argsort (rotation.map abs)) num
  let common := (transOrder.dedup.filter (fun i => decide (i ∈ rotOrder))).length
  if num = 0 then .error .zeroDivisionError else .ok (float64.fl ((common : ℝ) / num))

end Verif.Rounding
