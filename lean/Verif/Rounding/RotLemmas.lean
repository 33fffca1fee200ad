import Mathlib.Analysis.SpecialFunctions.Trigonometric.Bounds
import Verif.Rounding.StoreLemmas
import Verif.Rounding.RotModel
/-!
# Lemmas on orientations of float32
-/

namespace Verif.Rounding

open Quaternion Verif.Motion

/-- The argument of a number near a point of the unit circle. -/
theorem arg_near {z : ℂ} {Δ κ : ℝ} (hz : ‖z - Complex.exp (Δ * Complex.I)‖ ≤ κ) (hκ : κ ≤ 1 / 2)
    (hΔ : |Δ| + 2 * κ < Real.pi) : |Complex.arg z - Δ| ≤ 2 * κ := by
  have hκ0 : 0 ≤ κ := (norm_nonneg _).trans hz
  set w : ℂ := z * Complex.exp (-(Δ * Complex.I)) with hw
  have hexp : Complex.exp (Δ * Complex.I) * Complex.exp (-(Δ * Complex.I)) = 1 := by
    rw [← Complex.exp_add, add_neg_cancel, Complex.exp_zero]
  have hn : ‖Complex.exp (-(Δ * Complex.I))‖ = 1 := by
    rw [show -((Δ : ℂ) * Complex.I) = ((-Δ : ℝ) : ℂ) * Complex.I by push_cast; ring]
    exact Complex.norm_exp_ofReal_mul_I _
  have hw1 : ‖w - 1‖ ≤ κ := by
    rw [hw, ← hexp, ← sub_mul, norm_mul, hn, mul_one]
    exact hz
  have hre : |(w - 1).re| ≤ κ := (Complex.abs_re_le_norm _).trans hw1
  have him : |(w - 1).im| ≤ κ := (Complex.abs_im_le_norm _).trans hw1
  simp only [Complex.sub_re, Complex.one_re, Complex.sub_im, Complex.one_im, sub_zero] at hre him
  have hpos : 1 / 2 ≤ w.re := by
    have := (abs_le.1 hre).1
    linarith
  have hw0 : w ≠ 0 := by
    intro h; rw [h] at hpos; norm_num at hpos
  have hlt : |Complex.arg w| < Real.pi / 2 :=
    Complex.abs_arg_lt_pi_div_two_iff.2 (Or.inl (by linarith))
  have harg : |Complex.arg w| ≤ 2 * κ := by
    have h1 : |Complex.arg w| ≤ Real.tan |Complex.arg w| := Real.le_tan (abs_nonneg _) hlt
    have h2 : Real.tan |Complex.arg w| = |w.im / w.re| := by
      rw [← Complex.tan_arg]
      rcases le_total 0 (Complex.arg w) with h | h
      · rw [abs_of_nonneg h, abs_of_nonneg (Real.tan_nonneg_of_nonneg_of_le_pi_div_two h
          (by rw [abs_of_nonneg h] at hlt; exact hlt.le))]
      · have hn := Real.tan_nonneg_of_nonneg_of_le_pi_div_two (x := -Complex.arg w) (by linarith)
          (by rw [abs_of_nonpos h] at hlt; exact hlt.le)
        rw [Real.tan_neg] at hn
        rw [abs_of_nonpos h, Real.tan_neg, abs_of_nonpos (by linarith)]
    rw [h2, abs_div, abs_of_pos (show 0 < w.re by linarith)] at h1
    refine h1.trans ?_
    rw [div_le_iff₀ (by linarith)]
    nlinarith
  have hz' : z = (‖w‖ : ℂ) * (Complex.cos ((Complex.arg w + Δ : ℝ) : ℂ) +
      Complex.sin ((Complex.arg w + Δ : ℝ) : ℂ) * Complex.I) := by
    have h1 : z = w * Complex.exp (Δ * Complex.I) := by
      rw [hw, mul_assoc, mul_comm (Complex.exp (-(Δ * Complex.I))), hexp, mul_one]
    rw [← Complex.exp_mul_I]
    push_cast
    rw [add_mul, Complex.exp_add, ← mul_assoc, Complex.norm_mul_exp_arg_mul_I]
    exact h1
  have hin : Complex.arg w + Δ ∈ Set.Ioc (-Real.pi) Real.pi := by
    have h1 := abs_le.1 harg
    have h2 := neg_abs_le Δ
    have h3 := le_abs_self Δ
    constructor <;> linarith
  have := Complex.arg_mul_cos_add_sin_mul_I (r := ‖w‖) (norm_pos_iff.2 hw0) hin
  rw [← hz'] at this
  rw [this, add_sub_cancel_right]
  exact harg

theorem clip1_near {x c : ℝ} (hc : |c| ≤ 1) : |clip1 x - c| ≤ |x - c| := by
  have h := abs_le.1 hc
  unfold clip1
  rcases le_total x 1 with h1 | h1
  · rw [min_eq_right h1]
    rcases le_total (-1) x with h2 | h2
    · rw [max_eq_right h2]
    · rw [max_eq_left h2, abs_of_nonpos (by linarith), abs_of_nonpos (by linarith)]
      linarith
  · rw [min_eq_left h1, max_eq_right (by norm_num), abs_of_nonneg (by linarith), abs_of_nonneg (by linarith)]
    linarith

theorem clip1_zero : clip1 0 = 0 := by unfold clip1; norm_num

theorem clip1_pos {x : ℝ} (h : 0 < x) : 0 < clip1 x := by
  unfold clip1
  exact lt_max_of_lt_right (lt_min one_pos h)

/-- A quaternion of a rotation about z, as a complex number. -/
def toC (q : Quat) : ℂ := ⟨q.re, q.imK⟩

/-- Rotations about z. -/
def Planar (q : Quat) : Prop := q.imI = 0 ∧ q.imJ = 0

theorem planar_div {q p : Quat} (hq : Planar q) (hp : Planar p) :
    Planar (q * p⁻¹) ∧ toC (q * p⁻¹) = toC q / toC p := by
  have hn : normSq p = Complex.normSq (toC p) := by
    rw [Quaternion.normSq_def', hp.1, hp.2, Complex.normSq_apply]
    simp only [toC]; ring
  have hinv : p⁻¹ = (normSq p)⁻¹ • star p := rfl
  refine ⟨⟨?_, ?_⟩, ?_⟩
  · rw [hinv]; simp [hq.1, hq.2, hp.1, hp.2]
  · rw [hinv]; simp [hq.1, hq.2, hp.1, hp.2]
  · rw [hinv, hn]
    apply Complex.ext
    · simp [Complex.div_re, toC, hq.1, hq.2, hp.1, hp.2]; ring
    · simp [Complex.div_im, toC, hq.1, hq.2, hp.1, hp.2]; ring

theorem planar_norm {q : Quat} (hq : Planar q) : Real.sqrt (normSq q) = ‖toC q‖ := by
  rw [Complex.norm_def]
  congr 1
  rw [Quaternion.normSq_def', hq.1, hq.2, Complex.normSq_apply]
  simp only [toC]; ring

/-- The angles read off a rotation about z. -/
theorem toEuler32_planar {tol : Tolerance} (ht : tol.gimbal < 1) {r : Quat} (hr : Planar r)
    (h0 : toC r ≠ 0) : toEuler32 tol r =
      (Complex.arg ⟨clip1 ((toC r) ^ 2).re, clip1 ((toC r) ^ 2).im⟩, 0, 0) := by
  have hpos : 0 < r.re ^ 2 + r.imK ^ 2 := by
    have := Complex.normSq_pos.2 h0
    rw [Complex.normSq_apply] at this
    simp only [toC] at this
    nlinarith
  have e1 : ((toC r) ^ 2).re = r.re ^ 2 - r.imK ^ 2 := by simp [toC, pow_two]
  have e2 : ((toC r) ^ 2).im = 2 * (r.re * r.imK) := by simp [toC, pow_two]; ring
  rw [e1, e2]
  unfold toEuler32
  simp only [hr.1, hr.2]
  have z1 : 2 * (0 * r.imK - r.re * 0) = (0 : ℝ) := by ring
  have z2 : 2 * (0 * r.imK + r.re * 0) = (0 : ℝ) := by ring
  have z3 : r.re ^ 2 - 0 ^ 2 - 0 ^ 2 + r.imK ^ 2 = r.re ^ 2 + r.imK ^ 2 := by ring
  have z4 : r.re ^ 2 + 0 ^ 2 - 0 ^ 2 - r.imK ^ 2 = r.re ^ 2 - r.imK ^ 2 := by ring
  have z5 : 2 * (0 * 0 + r.re * r.imK) = 2 * (r.re * r.imK) := by ring
  rw [z1, z2, z3, z4, z5, clip1_zero, neg_zero, Real.arcsin_zero, Real.cos_zero, abs_one,
    if_neg (by linarith)]
  have hc := clip1_pos hpos
  have harg : arctan2 0 (clip1 (r.re ^ 2 + r.imK ^ 2)) = 0 := by
    unfold arctan2
    have : (⟨clip1 (r.re ^ 2 + r.imK ^ 2), 0⟩ : ℂ) = ((clip1 (r.re ^ 2 + r.imK ^ 2) : ℝ) : ℂ) := rfl
    rw [this, Complex.arg_ofReal_of_nonneg hc.le]
  rw [harg]
  rfl

end Verif.Rounding
