import Verif.RelaxTime.Spec
/-!
# Vocabulary for a change of units
-/

namespace Verif.RelaxTime

/-- A result in a unit that is `c` times smaller. -/
noncomputable def Result.rescaled (c : ℝ) (r : Result) : Result := ⟨r.mean.map (c * ·), r.error.map (c * ·)⟩

/-- The change of unit leaves the same values between 2 and 50. -/
def SameRegion (c : ℝ) (value : List (Option ℝ)) : Prop :=
  ∀ x, some x ∈ value → (2 < x ∧ x < 50 ↔ 2 < c * x ∧ c * x < 50)

/-- There are two samples at different times with values between 2 and 50. -/
def TwoTimes (time : List ℝ) (value : List (Option ℝ)) : Prop :=
  ∃ t₁ x₁ t₂ x₂, (t₁, some x₁) ∈ time.zip value ∧ (t₂, some x₂) ∈ time.zip value ∧
    2 < x₁ ∧ x₁ < 50 ∧ 2 < x₂ ∧ x₂ < 50 ∧ t₁ ≠ t₂

end Verif.RelaxTime
