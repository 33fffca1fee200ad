import Verif.Motion.Model
/-!
# Vocabulary for the errors of averages
-/

namespace Verif.Rounding

open Verif.Motion

/-- Each component is zero or at least 2^-20, about 1e-6. -/
def Visible (v : V3) : Prop :=
  (v.1 = 0 ∨ 2 ^ (-20 : ℤ) ≤ |v.1|) ∧ (v.2.1 = 0 ∨ 2 ^ (-20 : ℤ) ≤ |v.2.1|) ∧
  (v.2.2 = 0 ∨ 2 ^ (-20 : ℤ) ≤ |v.2.2|)

/-- The square of the length. -/
def lenSq (v : V3) : ℝ := v.1 ^ 2 + v.2.1 ^ 2 + v.2.2 ^ 2

/-- The average of a quantity over a list. -/
noncomputable def average {ι : Type} (l : List ι) (f : ι → ℝ) : ℝ := (l.map f).sum / l.length

/-- The value differs from the true one by at most the fraction `ε` of it. -/
def RelErr (ε x y : ℝ) : Prop := |x - y| ≤ ε * y

end Verif.Rounding
