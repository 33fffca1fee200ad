import Mathlib.Data.List.Dedup
import Verif.RelaxTime.Model
/-!
# Model of the tables of `src/sdanalysis/relaxation.py`

A table is its list of column names and its rows; a row has an index and a number or NaN (`none`)
for every column.  Lines cited without a file are lines of `relaxation.py`.  All columns are
numeric.  The order in which pandas returns groups (sorted by key) is not modelled: the model
returns them in order of first appearance.
-/

namespace Verif.Tables

open Verif.RelaxTime

/-- A row of a `pandas.DataFrame`. -/
structure Row where
  index : ℝ
  val : String → Option ℝ

/-- A `pandas.DataFrame`. -/
structure Table where
  columns : List String
  rows : List Row

/-- The key of a group: keyframe, temperature, pressure. -/
abbrev Key := ℝ × ℝ × ℝ

/-- The columns by which the code groups, lines 468, 517 and 523. -/
def keyColumns : List String := ["keyframe", "temperature", "pressure"]

/-- The group of a row in pandas' `groupby`: a row with NaN in a key column is in no group. -/
def Row.key (r : Row) : Option Key :=
  match r.val "keyframe", r.val "temperature", r.val "pressure" with
  | some k, some t, some p => some (k, t, p)
  | _, _, _ => none

open Classical in
/-- The keys of the groups. -/
noncomputable def Table.keys (df : Table) : List Key := (df.rows.filterMap Row.key).dedup

open Classical in
/-- The rows of one group, in order. -/
noncomputable def Table.group (df : Table) (k : Key) : List Row :=
  df.rows.filter (fun r => decide (r.key = some k))

/-- A row of a summary: the key (the index of the DataFrame) and the columns. -/
structure Summary where
  key : Key
  vals : Dict String (Option ℝ)

open Classical in
/-- `df.replace(2 ** 32 - 1, np.nan)`, line 514. -/
noncomputable def Table.replaceSentinel (df : Table) : Table :=
  { df with rows := df.rows.map (fun r =>
      { r with val := fun c => if r.val c = some (2 ^ 32 - 1) then none else r.val c }) }

/-- `x.isna().sum().sum() == 0` for the group of a key. -/
noncomputable def Table.complete (df : Table) (k : Key) : Bool :=
  (df.group k).all (fun r => df.columns.all (fun c => (r.val c).isSome))

/-- `df.groupby(…).filter(…)`, lines 517-519: the rows of the complete groups. -/
noncomputable def Table.keepComplete (df : Table) : Table :=
  { df with rows := df.rows.filter (fun r =>
      match r.key with
      | some k => df.complete k
      | none => false) }

/-- The values of one column in one group, without NaN (as `mean` has it). -/
noncomputable def Table.values (df : Table) (k : Key) (c : String) : List ℝ :=
  (df.group k).filterMap (fun r => r.val c)

/-- `"mean"`. -/
noncomputable def mean (l : List ℝ) : ℝ := l.sum / l.length

/-- The columns that are aggregated: all but the keys. -/
def Table.dataColumns (df : Table) : List String :=
  df.columns.filter (fun c => !(keyColumns.contains c))

/-- Both statistics of one column in all groups; an exception of `hmean` ends it. -/
noncomputable def aggregateColumn (hmean : List ℝ → Except PyErr ℝ) (df : Table) (c : String) :
    List Key → Except PyErr (List (Key × ℝ × ℝ))
  | [] => .ok []
  | k :: ks =>
    match hmean (df.values k c) with
    | .error e => .error e
    | .ok h =>
      match aggregateColumn hmean df c ks with
      | .error e => .error e
      | .ok l => .ok ((k, mean (df.values k c), h) :: l)

/-- `groupby(…).agg(["mean", hmean])`, line 523: pandas (< 1.0) leaves out a column for which a
function raises ValueError or TypeError. -/
noncomputable def aggregate (hmean : List ℝ → Except PyErr ℝ) (df : Table) :
    List String → Except PyErr (List (String × List (Key × ℝ × ℝ)))
  | [] => .ok []
  | c :: cs =>
    match aggregateColumn hmean df c df.keys with
    | .error .valueError => aggregate hmean df cs
    | .error .typeError => aggregate hmean df cs
    | .error e => .error e
    | .ok col =>
      match aggregate hmean df cs with
      | .error e => .error e
      | .ok l => .ok ((c, col) :: l)

open Classical in
/-- The entries of an aggregated column that belong to one group, with the names of line 526. -/
noncomputable def named (k : Key) (c : String × List (Key × ℝ × ℝ)) : Dict String (Option ℝ) :=
  match c.2.find? (fun e => decide (e.1 = k)) with
  | some e => [(c.1 ++ "_mean", some e.2.1), (c.1 ++ "_hmean", some e.2.2)]
  | none => []

/-- `compute_molecular_relaxations`, lines 502-526.  `hmean` is `scipy.stats.hmean`.  When no column
can be aggregated pandas raises ValueError. -/
noncomputable def computeMolecularRelaxations (hmean : List ℝ → Except PyErr ℝ) (df : Table) :
    Except PyErr (List Summary) :=
  if "temperature" ∉ df.columns then .error .valueError
  else if "pressure" ∉ df.columns then .error .valueError
  else if "keyframe" ∉ df.columns then .error .valueError
  else
    let df := df.replaceSentinel.keepComplete
    match aggregate hmean df df.dataColumns with
    | .error e => .error e
    | .ok [] => .error .valueError
    | .ok cols => .ok (df.keys.map (fun k => ⟨k, cols.flatMap (named k)⟩))

/-- `series_relaxation_value`, lines 394-425, for the rows of one group and one column.  The index
of the series has no levels called temperature or pressure, since both are columns here. -/
noncomputable def seriesRelaxationValue (signals : Bool) (fit : List (ℝ × ℝ) → Except PyErr Fit)
    (rows : List Row) (c : String) : Except PyErr (Option ℝ) :=
  match computeRelaxationValue signals fit (rows.map Row.index) (rows.map (fun r => r.val c)) c with
  | .error e => .error e
  | .ok r => .ok r.mean

/-- One column in all groups. -/
noncomputable def relaxationColumn (signals : Bool) (fit : List (ℝ × ℝ) → Except PyErr Fit)
    (df : Table) (c : String) : List Key → Except PyErr (List (Key × Option ℝ))
  | [] => .ok []
  | k :: ks =>
    match seriesRelaxationValue signals fit (df.group k) c with
    | .error e => .error e
    | .ok v =>
      match relaxationColumn signals fit df c ks with
      | .error e => .error e
      | .ok l => .ok ((k, v) :: l)

/-- `groupby(…).agg(series_relaxation_value)`, lines 468-470: pandas (< 1.0) leaves out a column for
which the function raises TypeError. -/
noncomputable def relaxationColumns (signals : Bool) (fit : List (ℝ × ℝ) → Except PyErr Fit)
    (df : Table) : List String → Except PyErr (List (String × List (Key × Option ℝ)))
  | [] => .ok []
  | c :: cs =>
    match relaxationColumn signals fit df c df.keys with
    | .error .typeError => relaxationColumns signals fit df cs
    | .error e => .error e
    | .ok col =>
      match relaxationColumns signals fit df cs with
      | .error e => .error e
      | .ok l => .ok ((c, col) :: l)

/-- `extra_columns`, line 463. -/
def extraColumns : List String := ["mean_displacement", "mean_rotation", "mfd", "overlap"]

/-- Lines 464-466. -/
def Table.dropExtra (df : Table) : Table :=
  { df with columns := df.columns.filter (fun c => !(extraColumns.contains c)) }

open Classical in
/-- The entry of a relaxation column that belongs to one group; NaN when there is none. -/
noncomputable def joined (k : Key) (c : String × List (Key × Option ℝ)) : String × Option ℝ :=
  match c.2.find? (fun e => decide (e.1 = k)) with
  | some e => (c.1, e.2)
  | none => (c.1, none)

/-- `df_mol.join(relaxations, on=…, lsuffix="mol")`, lines 485-487: a left join. The columns of
`df_mol` end in `_mean` or `_hmean`; a column of `relaxations` with the same name is not modelled. -/
noncomputable def join (mol : List Summary) (cols : List (String × List (Key × Option ℝ))) :
    List Summary :=
  mol.map (fun s => ⟨s.key, s.vals ++ cols.map (joined s.key)⟩)

/-- A file: whether it is HDF5, and the tables used here. -/
structure Store where
  hdf5 : Bool
  dynamics : Option Table
  molecular : Option Table

/-- `compute_relaxations`, lines 428-499: the table written to `relaxations`. Lines 490-497 cannot
raise, since `reset_index` makes the keys columns. -/
noncomputable def computeRelaxations (signals : Bool) (fit : List (ℝ × ℝ) → Except PyErr Fit)
    (hmean : List ℝ → Except PyErr ℝ) (src : Store) : Except PyErr (List Summary) :=
  if !src.hdf5 then .error .valueError
  else
    match src.dynamics with
    | none => .error .keyError
    | some dyn =>
      match src.molecular with
      | none => .error .keyError
      | some mol =>
        let df := dyn.dropExtra
        match relaxationColumns signals fit df df.dataColumns with
        | .error e => .error e
        | .ok cols =>
          match computeMolecularRelaxations hmean mol with
          | .error e => .error e
          | .ok m => .ok (join m cols)

end Verif.Tables
