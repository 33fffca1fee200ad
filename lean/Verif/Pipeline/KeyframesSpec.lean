import Verif.Pipeline.Spec
/-!
# Vocabulary for the comparison of different keyframes
-/

namespace Verif.Pipeline

open Verif.Dynamics

/-- In the three rows the quantity `q`, measured by `f`, is like the sides of a triangle: none is longer than the
two others together. -/
def Sides (f : ℝ → ℝ) (q : Quantity) (a b c : Dict Quantity Val) : Prop :=
  ∃ x y z, Reports a q x ∧ Reports b q y ∧ Reports c q z ∧
    f x ≤ f y + f z ∧ f y ≤ f x + f z ∧ f z ≤ f x + f y

end Verif.Pipeline
