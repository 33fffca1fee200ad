import Mathlib.Analysis.Quaternion
import Mathlib.Geometry.Euclidean.Angle.Unoriented.TriangleInequality
import Verif.Angle.RotSpec
import Verif.Angle.Lemmas
import Verif.Order.ModelProps
/-!
# Lemmas on the angle of a rotation
-/

namespace Verif.Angle

open Verif.Motion Verif.Dynamics Quaternion
open Verif.Order (dot dot_comm normSq_eq_dot intrinsicDistance intrinsic_eq qnorm rowanLog)

/-- The rotated vector, entry by entry. -/
theorem rotate_entries (q : Quat) (x y z : ℝ) : rotate q (x, y, z) =
    ((q.re ^ 2 + q.imI ^ 2 - q.imJ ^ 2 - q.imK ^ 2) * x + 2 * (q.imI * q.imJ - q.re * q.imK) * y +
        2 * (q.imI * q.imK + q.re * q.imJ) * z,
      2 * (q.imI * q.imJ + q.re * q.imK) * x + (q.re ^ 2 - q.imI ^ 2 + q.imJ ^ 2 - q.imK ^ 2) * y +
        2 * (q.imJ * q.imK - q.re * q.imI) * z,
      2 * (q.imI * q.imK - q.re * q.imJ) * x + 2 * (q.imJ * q.imK + q.re * q.imI) * y +
        (q.re ^ 2 - q.imI ^ 2 - q.imJ ^ 2 + q.imK ^ 2) * z) := by
  simp only [rotate, qVec, Prod.mk.injEq, Quaternion.imI_mul, Quaternion.imJ_mul, Quaternion.imK_mul,
    Quaternion.re_mul, Quaternion.re_star, Quaternion.imI_star, Quaternion.imJ_star, Quaternion.imK_star]
  simp only [vecQ]
  refine ⟨?_, ?_, ?_⟩ <;> ring

theorem rotate_mul (p q : Quat) (v : V3) : rotate (p * q) v = rotate p (rotate q v) := by
  obtain ⟨x, y, z⟩ := v
  rw [rotate_entries q, rotate_entries, rotate_entries]
  simp only [Prod.mk.injEq, Quaternion.imI_mul, Quaternion.imJ_mul, Quaternion.imK_mul, Quaternion.re_mul]
  refine ⟨?_, ?_, ?_⟩ <;> ring

theorem rotate_one' (v : V3) : rotate 1 v = v := by
  obtain ⟨x, y, z⟩ := v
  rw [rotate_entries]
  simp

theorem trace_rotate (q : Quat) (hq : normSq q = 1) :
    (rotate q (1, 0, 0)).1 + (rotate q (0, 1, 0)).2.1 + (rotate q (0, 0, 1)).2.2 = 4 * q.re ^ 2 - 1 := by
  rw [normSq_def'] at hq
  rw [rotate_entries, rotate_entries, rotate_entries]
  simp only
  linarith

theorem turnsBy_rotate (q : Quat) (hq : normSq q = 1) (θ : ℝ) :
    TurnsBy (rotate q) θ ↔ 0 ≤ θ ∧ θ ≤ Real.pi ∧ Real.cos θ = 2 * q.re ^ 2 - 1 := by
  unfold TurnsBy
  rw [trace_rotate q hq]
  constructor
  · rintro ⟨h1, h2, h3⟩; exact ⟨h1, h2, by linarith⟩
  · rintro ⟨h1, h2, h3⟩; exact ⟨h1, h2, by linarith⟩

theorem takesTo_iff (p q : Quat) (hp : normSq p = 1) (θ : ℝ) :
    TakesTo p q θ ↔ TurnsBy (rotate (q * p⁻¹)) θ := by
  have hp0 : p ≠ 0 := by rintro rfl; simp at hp
  constructor
  · rintro ⟨f, hf, ht⟩
    have : f = rotate (q * p⁻¹) := by
      funext v
      rw [rotate_mul, ← hf, ← rotate_mul, mul_inv_cancel₀ hp0, rotate_one']
    rwa [← this]
  · intro h
    refine ⟨_, fun v => ?_, h⟩
    rw [← rotate_mul, mul_assoc, inv_mul_cancel₀ hp0, mul_one]

/-- The angle between 0 and π whose cosine is that of `a`. -/
theorem fold_angle {a θ : ℝ} (ha : 0 ≤ a) (ha' : a ≤ 2 * Real.pi) (h0 : 0 ≤ θ) (h1 : θ ≤ Real.pi)
    (h : Real.cos θ = Real.cos a) : θ = min a (2 * Real.pi - a) := by
  rcases le_total a Real.pi with h2 | h2
  · rw [min_eq_left (by linarith)]
    exact Real.injOn_cos ⟨h0, h1⟩ ⟨ha, h2⟩ h
  · rw [min_eq_right (by linarith)]
    refine Real.injOn_cos ⟨h0, h1⟩ ⟨by linarith, by linarith⟩ ?_
    rw [h, Real.cos_two_pi_sub]

theorem dist_nonneg (p q : Quat) : 0 ≤ intrinsicDistance p q := Real.sqrt_nonneg _

theorem dist_le (p q : Quat) (hp : normSq p = 1) (hq : normSq q = 1) : intrinsicDistance p q ≤ Real.pi := by
  rw [normSq_eq_dot] at hp hq
  rw [intrinsic_eq p q hp hq]
  split
  · exact Real.pi_pos.le
  · exact Real.arccos_le_pi _

theorem log_eq (q : Quat) : qnorm (rowanLog q) = intrinsicDistance q 1 := by
  rw [intrinsicDistance, inv_one, mul_one]

theorem dist_comm' (p q : Quat) (hp : normSq p = 1) (hq : normSq q = 1) :
    intrinsicDistance p q = intrinsicDistance q p := by
  rw [normSq_eq_dot] at hp hq
  refine Order.intrinsic_congr hq hp hp hq (dot_comm p q) ?_
  constructor
  · rintro rfl; simp
  · rintro rfl; simp

theorem bcast_same {α β γ : Type} (f : α → β → γ) (a : List α) (b : List β) (h : a.length = b.length) :
    bcast f a b = .ok (List.zipWith f a b) := by
  unfold bcast; rw [if_pos h]

theorem dot_inner (p q : Quat) : dot p q = inner ℝ p q := by
  rw [Quaternion.inner_def]
  simp [dot]

theorem arccos_dot (p q : Quat) (hp : normSq p = 1) (hq : normSq q = 1) :
    Real.arccos (dot p q) = InnerProductGeometry.angle p q := by
  have hn : ∀ r : Quat, normSq r = 1 → ‖r‖ = 1 := by
    intro r hr
    rw [Quaternion.normSq_eq_norm_mul_self] at hr
    nlinarith [norm_nonneg r]
  rw [InnerProductGeometry.angle, hn p hp, hn q hq, dot_inner]
  simp

theorem dist_angle (p q : Quat) (hp : normSq p = 1) (hq : normSq q = 1) (h : p ≠ -q) :
    intrinsicDistance p q = InnerProductGeometry.angle p q := by
  rw [← arccos_dot p q hp hq]
  rw [normSq_eq_dot] at hp hq
  rw [intrinsic_eq p q hp hq, if_neg h]

theorem dist_le_angle (p q : Quat) (hp : normSq p = 1) (hq : normSq q = 1) :
    intrinsicDistance p q ≤ InnerProductGeometry.angle p q := by
  by_cases h : p = -q
  · have hp' := hp; have hq' := hq
    rw [normSq_eq_dot] at hp' hq'
    rw [intrinsic_eq p q hp' hq', if_pos h]
    exact InnerProductGeometry.angle_nonneg _ _
  · exact (dist_angle p q hp hq h).le

end Verif.Angle
