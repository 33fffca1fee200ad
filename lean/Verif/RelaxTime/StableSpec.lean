import Mathlib.Data.List.Forall2
import Verif.RelaxTime.Spec
/-!
# Vocabulary for C140: small errors in the values
-/

namespace Verif.RelaxTime

/-- Two numbers that differ by at most `ε`, or NaN twice. -/
def Near (ε : ℝ) : Option ℝ → Option ℝ → Prop
  | some x, some y => |x - y| ≤ ε
  | none, none => True
  | _, _ => False

/-- Two series of the same length with near values. -/
def Close (ε : ℝ) (value value' : List (Option ℝ)) : Prop := List.Forall₂ (Near ε) value value'

/-- No value is as near as `ε` to the number `c`. -/
def ClearOf (ε c : ℝ) (value : List (Option ℝ)) : Prop := ∀ x, some x ∈ value → ε < |x - c|

/-- One value is more than `2 ε` larger than all others. -/
def LoneMax (ε : ℝ) (value : List (Option ℝ)) : Prop :=
  ∃ (i : ℕ) (x : ℝ), value[i]? = some (some x) ∧ ∀ (j : ℕ) (y : ℝ), j ≠ i → value[j]? = some (some y) → y + 2 * ε < x

open Classical in
/-- The times at which the value lies strictly between 2 and 50. -/
noncomputable def linearTimes (time : List ℝ) (value : List (Option ℝ)) : List ℝ :=
  ((time.zip value).filter (fun p => decide (∃ x, p.2 = some x ∧ 2 < x ∧ x < 50))).map Prod.fst

/-- The sum of the squared distances from the mean. -/
noncomputable def spread (l : List ℝ) : ℝ := (l.map (fun t => (t - l.sum / l.length) ^ 2)).sum

end Verif.RelaxTime
