import Verif.Rounding.NormModel
import Verif.Rounding.RotModel
import Verif.Relax.Model
/-!
# Where single precision enters: the relaxation times of molecules, `src/sdanalysis/dynamics/relaxations.py`
-/

namespace Verif.Rounding

open Verif.Motion Verif.Relax

/-- The thresholds as they are compared: before a comparison with an array of float32 (lines 216, 273, 278, 283)
numpy (before 2.0) converts a Python float to float32. -/
noncomputable def single : MolRelax ℝ → MolRelax ℝ
  | .first r => .first { r with threshold := r.threshold.map float32.fl }
  | .last r => .last { r with threshold := r.threshold.map float32.fl,
                              irreversibility := r.irreversibility.map float32.fl }

variable (sum : List ℝ → ℝ) {α : Type}

/-- `Relaxations.add` frame by frame, lines 135-162, for one relaxation: the motion, its lengths (lines 153-154)
and the relaxation.  `step` adds a frame to the translations (`transAdd32`) or to the rotations (`rotAdd32`). -/
noncomputable def passLoop32 (step : List V3 → List α → List α → Except PyErr (List V3)) :
    List V3 → List α → MolRelax ℝ → List (Int × List α) → Except PyErr (MolRelax ℝ)
  | _, _, r, [] => .ok r
  | delta, prev, r, (t, x) :: rest =>
    match step delta prev x with
    | .error e => .error e
    | .ok delta' =>
      match r.add t (delta'.map (fun v => some (norm32 sum v))) with
      | .error e => .error e
      | .ok r' => passLoop32 step delta' x r' rest

/-- The values of a relaxation after a first frame and then further ones. -/
noncomputable def pass32 (step : List V3 → List α → List α → Except PyErr (List V3)) (r : MolRelax ℝ)
    (first : List α) (rest : List (Int × List α)) : Except PyErr (List Int) :=
  (passLoop32 sum step (first.map (fun _ => 0)) first (single r) rest).map MolRelax.getStatus

end Verif.Rounding
