import Mathlib.Analysis.SpecialFunctions.Log.Basic
import Verif.Motion.Model
/-!
# Model of `src/sdanalysis/order.py` and `src/sdanalysis/run_analysis.py`

Lines cited without a file are lines of `order.py`.  Floats are real numbers.  Importing the package
sets `np.seterr(divide="raise", invalid="raise")` (dynamics/dynamics.py:21, by way of
`__init__.py` and `read/_read.py:21`), so 0/0 is a FloatingPointError and never NaN.
-/

namespace Verif.Order

open Quaternion Verif.Motion

/-- `rowan.norm`. -/
noncomputable def qnorm (q : Quat) : ℝ := Real.sqrt (normSq q)

/-- Length of the vector part. -/
noncomputable def vnorm (q : Quat) : ℝ := Real.sqrt (q.imI ^ 2 + q.imJ ^ 2 + q.imK ^ 2)

/-- `rowan.log` of one quaternion: `(ln |q|, v / |v| * arccos(w / |q|))`, the vector part zero when
`v` is (division by zero is zero here). -/
noncomputable def rowanLog (q : Quat) : Quat :=
  let s := Real.arccos (q.re / qnorm q) / vnorm q
  ⟨Real.log (qnorm q), q.imI * s, q.imJ * s, q.imK * s⟩

/-- `rowan.geometry.intrinsic_distance` of two quaternions: the length of `log(p / q)`. -/
noncomputable def intrinsicDistance (p q : Quat) : ℝ := qnorm (rowanLog (p * q⁻¹))

/-- Integer indexing of an array by an array of indices, `orientation[row]`; IndexError when one is
out of range. -/
def gather {α : Type} (xs : List α) : List Nat → Except PyErr (List α)
  | [] => .ok []
  | j :: js =>
    match xs[j]? with
    | none => .error .indexError
    | some x =>
      match gather xs js with
      | .error e => .error e
      | .ok r => .ok (x :: r)

/-- `orientation[neighbourlist]` for a two dimensional index array. -/
def gatherRows {α : Type} (xs : List α) : List (List Nat) → Except PyErr (List (List α))
  | [] => .ok []
  | row :: rows =>
    match gather xs row with
    | .error e => .error e
    | .ok r =>
      match gatherRows xs rows with
      | .error e => .error e
      | .ok rs => .ok (r :: rs)

/-- The `np.where` of lines 56-59: missing neighbours are replaced by the molecule itself. -/
def replaceMissing (numMols : Nat) (row : List Nat) (self : Nat) : List Nat :=
  row.map (fun j => if j < numMols then j else self)

/-- `_neighbour_relative_angle`, lines 28-65 (the warning on lines 47-52 has no effect). -/
noncomputable def neighbourRelativeAngle (neighbourlist : List (List Nat)) (orientation : List Quat) :
    Except PyErr (List (List ℝ)) :=
  let numMols := orientation.length
  match bcast (replaceMissing numMols) neighbourlist (List.range numMols) with
  | .error e => .error e
  | .ok nl =>
    match gatherRows orientation nl with
    | .error e => .error e
    | .ok rows => bcast (fun row q => row.map (fun p => 2 * intrinsicDistance p q)) rows orientation

/-- `np.mean(·, axis=1)`; the mean of an empty row is 0/0. -/
noncomputable def rowMeans (rows : List (List ℝ)) : Except PyErr (List ℝ) :=
  if rows.any List.isEmpty then .error .floatingPointError
  else .ok (rows.map (fun row => row.sum / row.length))

/-- `_orientational_order`, lines 68-86. -/
noncomputable def orientationalOrderOf (neighbourlist : List (List Nat)) (orientation : List Quat) :
    Except PyErr (List ℝ) :=
  match neighbourRelativeAngle neighbourlist orientation with
  | .error e => .error e
  | .ok angles => rowMeans (angles.map (fun row => row.map (fun a => Real.cos a ^ 2)))

/-- The neighbours that freud has found: for every particle the indices and squared distances. -/
structure Table where
  rows : List (List (Nat × ℝ))

/-- The index freud gives for a missing neighbour. -/
def missing : Nat := 4294967295

/-- `getNeighborList()`: `k` columns, missing neighbours are `2 ** 32 - 1`. -/
def Table.index (t : Table) (k : Nat) : List (List Nat) :=
  t.rows.map (fun r => r.map Prod.fst ++ List.replicate (k - r.length) missing)

/-- `r_sq_list`: `k` columns, missing neighbours are -1. -/
def Table.rsq (t : Table) (k : Nat) : List (List ℝ) :=
  t.rows.map (fun r => r.map Prod.snd ++ List.replicate (k - r.length) (-1))

/-- `nlist.neighbor_counts`. -/
def Table.counts (t : Table) : List Nat := t.rows.map List.length

/-- `freud.locality.NearestNeighbors(r, k, strict_cut=True).compute(box, position)`. -/
abbrev Freud := Box → List V3 → ℝ → Nat → Table

variable (freud : Freud)

/-- `setup_neighbours`, lines 174-183. -/
def setupNeighbours (box : List ℝ) (position : List V3) (maxRadius : ℝ) (maxNeighbours : Nat)
    (is2D : Bool) : Except PyErr Table :=
  match createFreudBox box is2D with
  | .error e => .error e
  | .ok b => .ok (freud b position maxRadius maxNeighbours)

/-- `compute_neighbours`, lines 186-207. -/
def computeNeighbours (box : List ℝ) (position : List V3) (maxRadius : ℝ) (maxNeighbours : Nat) :
    Except PyErr (List (List Nat)) :=
  match setupNeighbours freud box position maxRadius maxNeighbours true with
  | .error e => .error e
  | .ok t => .ok (t.index maxNeighbours)

/-- `relative_orientations`, lines 210-231. -/
noncomputable def relativeOrientations (box : List ℝ) (position : List V3) (orientation : List Quat)
    (maxRadius : ℝ) (maxNeighbours : Nat) : Except PyErr (List (List ℝ)) :=
  match computeNeighbours freud box position maxRadius maxNeighbours with
  | .error e => .error e
  | .ok nl => neighbourRelativeAngle nl orientation

/-- `orientational_order`, lines 234-262. -/
noncomputable def orientationalOrder (box : List ℝ) (position : List V3) (orientation : List Quat)
    (maxRadius : ℝ) (maxNeighbours : Nat) : Except PyErr (List ℝ) :=
  match computeNeighbours freud box position maxRadius maxNeighbours with
  | .error e => .error e
  | .ok nl => orientationalOrderOf nl orientation

/-- `num_neighbours`, lines 266-281. -/
def numNeighbours (box : List ℝ) (position : List V3) (maxRadius : ℝ) : Except PyErr (List Nat) :=
  match setupNeighbours freud box position maxRadius 9 true with
  | .error e => .error e
  | .ok t => .ok t.counts

/-- `relative_distances`, lines 284-309. -/
noncomputable def relativeDistances (box : List ℝ) (position : List V3) (maxRadius : ℝ)
    (maxNeighbours : Nat) : Except PyErr (List (List ℝ)) :=
  match setupNeighbours freud box position maxRadius maxNeighbours true with
  | .error e => .error e
  | .ok t => .ok ((t.rsq maxNeighbours).map (fun row =>
      row.map (fun d => Real.sqrt (if d < 0 then 0 else d))))

/-- The comparison `x > threshold`. -/
noncomputable def above (threshold x : ℝ) : Bool := decide (x > threshold)

/-- The function made by `create_orient_ordering`, lines 124-128: neighbours within 3.5, at most
8. -/
noncomputable def orientOrdering (threshold : ℝ) (box : List ℝ) (position : List V3)
    (orientation : List Quat) : Except PyErr (List Bool) :=
  match orientationalOrder freud box position orientation 3.5 8 with
  | .error e => .error e
  | .ok r => .ok (r.map (above threshold))

/-- A frame of a gsd trajectory; reading a corrupt one raises RuntimeError. -/
structure GsdFrame where
  step : Int
  box : List ℝ
  position : List V3
  orientation : List Quat

/-- The line printed for a frame, run_analysis.py:31-42; without particles the division is 0/0. -/
noncomputable def orderLine (f : GsdFrame) : Except PyErr (Int × ℝ) :=
  match orientationalOrder freud f.box f.position f.orientation 3.5 8 with
  | .error e => .error e
  | .ok r =>
    if r.length = 0 then .error .floatingPointError
    else .ok (f.step, ((r.filter (above 0.9)).length : ℝ) / r.length)

/-- `order`, run_analysis.py:20-42, without the header.  A corrupt frame is `none`.  The `for`
statement on line 25 reads every frame itself, outside the `try`, before the body reads it again. -/
noncomputable def orderFile : List (Option GsdFrame) → List (Int × ℝ) × Option PyErr
  | [] => ([], none)
  | none :: _ => ([], some .runtimeError)
  | some f :: fs =>
    match orderLine freud f with
    | .error e => ([], some e)
    | .ok l => (l :: (orderFile fs).1, (orderFile fs).2)

end Verif.Order
