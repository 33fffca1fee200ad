import Verif.Angle.RotModel
/-!
# Vocabulary: the angle of a rotation
-/

namespace Verif.Angle

open Verif.Motion Verif.Dynamics Quaternion

/-- The linear map `f` turns by the angle `θ`, between 0 and π: its trace is `1 + 2 cos θ`. -/
def TurnsBy (f : V3 → V3) (θ : ℝ) : Prop :=
  0 ≤ θ ∧ θ ≤ Real.pi ∧
    (f (1, 0, 0)).1 + (f (0, 1, 0)).2.1 + (f (0, 0, 1)).2.2 = 1 + 2 * Real.cos θ

/-- A turn by `θ` takes a body with orientation `p` to orientation `q`: every vector fixed in the body goes from
where `p` puts it to where `q` puts it. -/
def TakesTo (p q : Quat) (θ : ℝ) : Prop :=
  ∃ f : V3 → V3, (∀ v, f (rotate p v) = rotate q v) ∧ TurnsBy f θ

/-- C148 in full: the functions give the angles. -/
def RotationsMeasured : Prop :=
  (∀ p q : Quat, normSq p = 1 → normSq q = 1 → ∀ θ, TakesTo p q θ → quaternionRotation [p] [q] = .ok [θ]) ∧
  (∀ q : Quat, normSq q = 1 → ∀ θ, TurnsBy (rotate q) θ → quaternionAngle [q] = [θ])

end Verif.Angle
