import Verif.Pipeline.Spec
import Verif.Pipeline.Model
import Verif.Gsd.Spec
import Verif.StepSize.Spec
import Verif.StepSize.Model
import Verif.Names.Spec
import Mathlib.Tactic.Linarith
/-!
# Vocabulary and lemmas for C165
-/

namespace Verif.Pipeline

open Verif.Motion Verif.Gsd Verif.Names Verif.StepSize

variable {N : ℕ}

open Classical in
/-- The readable frames with molecules on the steps that keyframe `k` asks for. -/
noncomputable def seriesFrames (raws : List (Raw PData)) (M linear interval kmax : Int) (k : ℕ) :
    List (GFrame PData) :=
  (readable raws).filter (fun f => decide (f.data.position ≠ [] ∧
    ∃ s0, firstStep (seriesList M linear interval kmax) k = some s0 ∧ s0 ≤ f.timestep ∧
      Wants M linear s0 f.timestep))

theorem gframes_later {t : ℕ → ℤ} {box : ℕ → List ℝ} {s : ℕ → Fin N → V3} {o : ℕ → Option (Fin N → Quat)} {n : ℕ}
    (h : Increasing (gframes t box s o n)) : ∀ i, 1 ≤ i → i ≤ n → t 0 < t i := by
  intro i h1 h2
  have := List.pairwise_iff_getElem.1 h 0 i (by simp [gframes]) (by simp [gframes]; omega) (by omega)
  simpa [gframes, gf] using this

theorem rounded_small {x r : ℚ} (h : RoundedTo2 x r) (hx : x < 2 ^ 32 - 2) : (r : ℝ) ≠ 2 ^ 32 - 1 := by
  have h1 := abs_le.1 h.2
  have h2 : r < 2 ^ 32 - 1 := by linarith [h1.2]
  have : (r : ℝ) < 2 ^ 32 - 1 := by exact_mod_cast h2
  exact this.ne

end Verif.Pipeline
