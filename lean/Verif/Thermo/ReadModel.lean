import Mathlib.Algebra.Order.Field.Basic
import Verif.Py
/-!
# `read_file` of `src/sdanalysis/figures/thermodynamics.py:23-30`

The table is given by its records, `pandas.read_table` being assumed.  Arithmetic is that of an ordered
field.
-/

namespace Verif.Thermo

/-- A record: the timestep and the other columns, named by `ι`. -/
structure Rec (ι K : Type) where
  timestep : ℤ
  value : ι → K

/-- A record after averaging; `none` is NaN. -/
structure Avg (ι K : Type) where
  timestep : Option K
  value : ι → Option K

variable {ι K : Type}

/-- `data[~data.index.duplicated(keep="last")]`, line 28: a record stays unless its time comes again.  The
time of line 26 is 5 ns for each timestep, so equal times are equal timesteps. -/
def keepLast : List (Rec ι K) → List (Rec ι K)
  | [] => []
  | r :: rs => if rs.any (fun s => decide (s.timestep = r.timestep)) then keepLast rs
    else r :: keepLast rs

/-- `mean` of a column; NaN when there are no records. -/
def mean [Field K] (l : List K) : Option K := if l.isEmpty then none else some (l.sum / l.length)

/-- The records of bin `k` when the first time is `lo`: a millisecond is 200000 timesteps. -/
def binOf (lo : ℤ) (k : ℕ) (rs : List (Rec ι K)) : List (Rec ι K) :=
  rs.filter (fun r => decide (lo + 200000 * k ≤ r.timestep ∧ r.timestep < lo + 200000 * (k + 1)))

/-- `resample("1ms").mean()`, line 29.  Assumed of pandas (`_get_time_delta_bins`): the bins start at the
first time and go on to the one of the last, whether there are records in them or not. -/
def resample [Field K] (rs : List (Rec ι K)) : List (Avg ι K) :=
  match (rs.map Rec.timestep).min?, (rs.map Rec.timestep).max? with
  | some lo, some hi => (List.range (((hi - lo) / 200000).toNat + 1)).map (fun k =>
      ⟨mean ((binOf lo k rs).map (fun r => (r.timestep : K))),
        fun c => mean ((binOf lo k rs).map (fun r => r.value c))⟩)
  | _, _ => []

/-- `read_file`, lines 23-30. -/
def readFile [Field K] (rs : List (Rec ι K)) : List (Avg ι K) := resample (keepLast rs)

end Verif.Thermo
