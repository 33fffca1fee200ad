import Verif.Tables.Model
import Verif.Pipeline.Model
/-!
# `comp_dynamics` followed by `comp_relaxations`

The tables that `process_file` writes (`src/sdanalysis/read/_read.py:82-195`) as `compute_relaxations`
(`src/sdanalysis/relaxation.py:428-499`) reads them.
-/

namespace Verif.Pipeline

open Verif.Dynamics Verif.Tables

/-- Temperature and pressure from the file name, _read.py:160-167; `none` is NaN. -/
abbrev Vars := Option ℝ × Option ℝ

/-- The rows of the output file. -/
abbrev FRec := Process.Rec ℕ (Dict Quantity Val) (Dict String ℤ) Vars

/-- The keys of `_all_quantities`, dynamics.py:49-65. -/
def quantityName : Quantity → String
  | .time => "time"
  | .mean_displacement => "mean_displacement"
  | .msd => "msd"
  | .mfd => "mfd"
  | .alpha => "alpha"
  | .scattering_function => "scattering_function"
  | .com_struct => "com_struct"
  | .mean_rotation => "mean_rotation"
  | .msr => "msr"
  | .rot1 => "rot1"
  | .rot2 => "rot2"
  | .alpha_rot => "alpha_rot"
  | .gamma => "gamma"
  | .overlap => "overlap"
  | .struct => "struct"

/-- A number in a table. -/
def number : Val → Option ℝ
  | .int i => some i
  | .num x => x

/-- The values of a row by column.  `keyframe`, `temperature` and `pressure` are set last in both tables
(_read.py:159-167 and 180-189). -/
noncomputable def recVal : FRec → String → Option ℝ
  | .dyn k r v, c =>
    if c = "keyframe" then some k else if c = "temperature" then v.1 else if c = "pressure" then v.2
    else (r.find? (fun p => decide (quantityName p.1 = c))).bind (fun p => number p.2)
  | .mol k m r v, c =>
    if c = "keyframe" then some k else if c = "temperature" then v.1 else if c = "pressure" then v.2
    else if c = "molecule" then some m else (Dict.get? r c).map (fun z : ℤ => (z : ℝ))

/-- The columns other than keyframe, temperature and pressure; the rows of a table all have the same. -/
def recNames : List FRec → List String
  | .dyn _ r _ :: _ => r.map (fun p => quantityName p.1)
  | .mol _ _ r _ :: _ => "molecule" :: r.map Prod.fst
  | [] => []

/-- The table `dynamics` as read back.  Every flush of the cache writes a data frame with the index 0, 1, …
(_read.py:63-66, 78-79), and there is one for every 8192 rows. -/
noncomputable def dynTable (rs : List FRec) : Table :=
  ⟨recNames rs ++ ["keyframe", "temperature", "pressure"],
    rs.mapIdx (fun i r => ⟨((i % 8192 : ℕ) : ℝ), recVal r⟩)⟩

/-- The table `molecular_relaxations` as read back; `reset_index` numbers the rows (_read.py:189). -/
noncomputable def molTable (rs : List FRec) : Table :=
  ⟨"keyframe" :: recNames rs ++ ["temperature", "pressure"], rs.mapIdx (fun i r => ⟨(i : ℝ), recVal r⟩)⟩

/-- The file. -/
noncomputable def storeOf (f : Cache.File FRec) : Store :=
  ⟨true, (Dict.get? f "dynamics").map dynTable, (Dict.get? f "molecular_relaxations").map molTable⟩

/-- `comp_relaxations`, main.py:168-182, on a file written by `comp_dynamics`. -/
noncomputable def compRelaxations (signals : Bool) (fit : List (ℝ × ℝ) → Except PyErr RelaxTime.Fit)
    (hmean : List ℝ → Except PyErr ℝ) (f : Cache.File FRec) : Except PyErr (List Summary) :=
  computeRelaxations signals fit hmean (storeOf f)

end Verif.Pipeline
