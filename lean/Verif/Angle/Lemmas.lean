import Verif.Angle.Model
import Verif.Dynamics.StructLemmas
/-!
# Lemmas on angles about z
-/

namespace Verif.Angle

open Verif.Motion Verif.Dynamics Quaternion

theorem fromEuler_z (t : ℝ) : fromEuler t 0 0 = zRot t := by
  have h1 : qy 0 = 1 := by
    unfold qy
    ext <;> simp
  have h2 : qx 0 = 1 := by
    unfold qx
    ext <;> simp
  unfold fromEuler
  rw [h1, h2, mul_one, mul_one]
  rfl

theorem arctan2_mem (y x : ℝ) : -Real.pi < arctan2 y x ∧ arctan2 y x ≤ Real.pi :=
  Complex.arg_mem_Ioc _

theorem toEuler_mem (q : Quat) : -Real.pi < (toEuler q).1 ∧ (toEuler q).1 ≤ Real.pi := by
  unfold toEuler
  simp only
  split_ifs
  · exact arctan2_mem _ _
  · exact arctan2_mem _ _

theorem toEuler_zRot_general (θ : ℝ) :
    (toEuler (zRot θ)).1 = arctan2 (Real.sin θ) (Real.cos θ) := by
  have h1 : Real.cos (θ / 2) ^ 2 - Real.sin (θ / 2) ^ 2 = Real.cos θ := by
    rw [← Real.cos_two_mul']; congr 1; ring
  have h2 : 2 * (Real.cos (θ / 2) * Real.sin (θ / 2)) = Real.sin θ := by
    rw [← mul_assoc, mul_right_comm, ← Real.sin_two_mul]; congr 1; ring
  unfold toEuler zRot
  simp [h1, h2]

theorem arctan2_sin_cos (θ : ℝ) :
    ∃ k : ℤ, arctan2 (Real.sin θ) (Real.cos θ) = θ + k * (2 * Real.pi) := by
  have hc : (⟨Real.cos θ, Real.sin θ⟩ : ℂ) = Complex.cos θ + Complex.sin θ * Complex.I := by
    apply Complex.ext <;> simp [Complex.cos_ofReal_re, Complex.sin_ofReal_re]
  refine ⟨-toIocDiv Real.two_pi_pos (-Real.pi) θ, ?_⟩
  unfold arctan2
  rw [hc, Complex.arg_cos_add_sin_mul_I_eq_toIocMod]
  have := toIocMod_add_toIocDiv_zsmul Real.two_pi_pos (-Real.pi) θ
  rw [zsmul_eq_mul] at this
  push_cast
  linarith

/-- A unit quaternion without x and y part is a rotation about z. -/
theorem planar_zRot (q : Quat) (hu : normSq q = 1) (h1 : q.imI = 0) (h2 : q.imJ = 0) :
    ∃ θ, q = zRot θ := by
  have h := hu
  rw [normSq_def', h1, h2] at h
  have hn : ‖(⟨q.re, q.imK⟩ : ℂ)‖ = 1 := by
    rw [Complex.norm_def, Complex.normSq_mk]
    rw [Real.sqrt_eq_one]
    nlinarith
  have hne : (⟨q.re, q.imK⟩ : ℂ) ≠ 0 := by
    intro h0
    rw [h0] at hn
    simp at hn
  refine ⟨2 * Complex.arg ⟨q.re, q.imK⟩, ?_⟩
  have e : 2 * Complex.arg ⟨q.re, q.imK⟩ / 2 = Complex.arg ⟨q.re, q.imK⟩ := by ring
  refine Quaternion.ext _ _ ?_ ?_ ?_ ?_
  · rw [zRot_re, e, Complex.cos_arg hne, hn]
    simp
  · rw [zRot_imI, h1]
  · rw [zRot_imJ, h2]
  · rw [zRot_imK, e, Complex.sin_arg, hn]
    simp

theorem zRot_add_turns (θ : ℝ) (k : ℤ) :
    zRot (θ + k * (2 * Real.pi)) = zRot θ ∨ zRot (θ + k * (2 * Real.pi)) = -zRot θ := by
  have e : (θ + k * (2 * Real.pi)) / 2 = θ / 2 + k * Real.pi := by ring
  rcases Int.even_or_odd' k with ⟨n, rfl | rfl⟩
  · left
    have e2 : θ / 2 + ((2 * n : ℤ) : ℝ) * Real.pi = θ / 2 + n * (2 * Real.pi) := by
      push_cast; ring
    refine Quaternion.ext _ _ ?_ rfl rfl ?_
    · rw [zRot_re, zRot_re, e, e2, Real.cos_add_int_mul_two_pi]
    · rw [zRot_imK, zRot_imK, e, e2, Real.sin_add_int_mul_two_pi]
  · right
    have e2 : θ / 2 + ((2 * n + 1 : ℤ) : ℝ) * Real.pi = θ / 2 + Real.pi + n * (2 * Real.pi) := by
      push_cast; ring
    refine Quaternion.ext _ _ ?_ ?_ ?_ ?_
    · rw [Quaternion.re_neg, zRot_re, zRot_re, e, e2, Real.cos_add_int_mul_two_pi, Real.cos_add_pi]
    · simp
    · simp
    · rw [Quaternion.imK_neg, zRot_imK, zRot_imK, e, e2, Real.sin_add_int_mul_two_pi,
        Real.sin_add_pi]

end Verif.Angle
