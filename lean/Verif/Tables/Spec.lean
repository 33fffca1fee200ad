import Verif.Tables.Model
/-!
# Vocabulary for C52 – C54
-/

namespace Verif.Tables

/-- The row is about this keyframe, at this temperature and pressure. -/
def Row.Of (r : Row) (k t p : ℝ) : Prop :=
  r.val "keyframe" = some k ∧ r.val "temperature" = some t ∧ r.val "pressure" = some p

/-- The table has molecules of this keyframe, and each of them has a relaxation time in every column:
neither NaN nor the value 2^32-1 that stands for "not relaxed". -/
def FullyRelaxed (df : Table) (k t p : ℝ) : Prop :=
  (∃ r ∈ df.rows, r.Of k t p) ∧
    ∀ r ∈ df.rows, r.Of k t p → ∀ c ∈ df.columns, ∃ x, r.val c = some x ∧ x ≠ 2 ^ 32 - 1

/-- What scipy says about `hmean`: for positive numbers it is the harmonic mean.  Older versions
raise ValueError otherwise, newer ones allow 0. -/
def IsHarmonicMean (hmean : List ℝ → Except PyErr ℝ) : Prop :=
  ∀ l, l ≠ [] → (∀ x ∈ l, 0 < x) → hmean l = .ok (l.length / (l.map (fun x => 1 / x)).sum)

open Classical in
/-- The numbers in column `c` of the molecules of one keyframe. -/
noncomputable def times (df : Table) (k t p : ℝ) (c : String) : List ℝ :=
  (df.rows.filter (fun r => decide (r.Of k t p))).filterMap (fun r => r.val c)

end Verif.Tables
