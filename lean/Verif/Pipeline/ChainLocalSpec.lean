import Verif.Pipeline.ChainMsdSpec
import Verif.Pipeline.ChainMaxSpec
/-!
# Vocabulary for C139
-/

namespace Verif.Pipeline

open Verif.Motion Verif.Dynamics

/-- The true course, with NaN, of a quantity that `comp_relaxations` turns into a time or a constant. -/
def Course.Follow {N : ℕ} (C : Course N) (a : Args) (q : Quantity) (y : ℕ → Option ℝ) : Prop :=
  (∃ x, C.Decay a q x ∧ ∀ i, y i = some (x i)) ∨ (∃ d x, C.Spread q d x ∧ ∀ i, y i = some (x i)) ∨ C.Peaked q y

end Verif.Pipeline
