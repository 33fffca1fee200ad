import Verif.Wave.Props
/-!
# Lemmas for the exact condition of C99
-/

namespace Verif.Wave

open Verif.Motion

/-- The inner product. -/
def dot3 (a v : V3) : ℝ := a.1 * v.1 + a.2.1 * v.2.1 + a.2.2 * v.2.2

theorem len_sq (v : V3) : Dynamics.len v ^ 2 = v.1 ^ 2 + v.2.1 ^ 2 + v.2.2 ^ 2 := by
  unfold Dynamics.len
  rw [Real.sq_sqrt (by unfold Dynamics.len2; nlinarith [sq_nonneg v.1, sq_nonneg v.2.1, sq_nonneg v.2.2])]
  unfold Dynamics.len2; ring

theorem dot3_sq_le (a v : V3) : dot3 a v ^ 2 ≤ dot3 a a * Dynamics.len v ^ 2 := by
  rw [len_sq]
  unfold dot3
  nlinarith [sq_nonneg (a.1 * v.2.1 - a.2.1 * v.1), sq_nonneg (a.1 * v.2.2 - a.2.2 * v.1),
    sq_nonneg (a.2.1 * v.2.2 - a.2.2 * v.2.1)]

/-- A component below half of `L` for all vectors of the ball. -/
theorem dot3_lt (a v : V3) {r L : ℝ} (hL : 0 < L) (h : dot3 a a * r ^ 2 < (L / 2) ^ 2)
    (hv : Dynamics.len v ≤ r) : |dot3 a v / L| < 1 / 2 := by
  have h0 : 0 ≤ Dynamics.len v := Real.sqrt_nonneg _
  have ha : 0 ≤ dot3 a a := by unfold dot3; nlinarith [sq_nonneg a.1, sq_nonneg a.2.1, sq_nonneg a.2.2]
  have h1 : dot3 a v ^ 2 < (L / 2) ^ 2 :=
    lt_of_le_of_lt ((dot3_sq_le a v).trans (mul_le_mul_of_nonneg_left (pow_le_pow_left₀ h0 hv 2) ha)) h
  rw [abs_div, abs_of_pos hL, div_lt_iff₀ hL]
  have := abs_lt_of_sq_lt_sq h1 (by positivity)
  linarith

/-- A vector of the ball along `a`. -/
theorem dot3_reached (a : V3) {r : ℝ} (hr : 0 ≤ r) (ha : 0 < dot3 a a) :
    ∃ s : ℝ, Dynamics.len (s * a.1, s * a.2.1, s * a.2.2) ≤ r ∧
      dot3 a (s * a.1, s * a.2.1, s * a.2.2) ^ 2 = dot3 a a * r ^ 2 := by
  have hs : 0 < Real.sqrt (dot3 a a) := Real.sqrt_pos.2 ha
  have hsq : Real.sqrt (dot3 a a) ^ 2 = dot3 a a := Real.sq_sqrt ha.le
  refine ⟨r / Real.sqrt (dot3 a a), ?_, ?_⟩
  · apply abs_le_of_sq_le_sq' _ hr |>.2
    rw [len_sq]
    simp only
    have : (r / Real.sqrt (dot3 a a) * a.1) ^ 2 + (r / Real.sqrt (dot3 a a) * a.2.1) ^ 2 +
        (r / Real.sqrt (dot3 a a) * a.2.2) ^ 2 = r ^ 2 / Real.sqrt (dot3 a a) ^ 2 * dot3 a a := by
      rw [show dot3 a a = a.1 * a.1 + a.2.1 * a.2.1 + a.2.2 * a.2.2 from rfl]
      ring
    rw [this, hsq, div_mul_cancel₀ _ ha.ne']
  · have : dot3 a (r / Real.sqrt (dot3 a a) * a.1, r / Real.sqrt (dot3 a a) * a.2.1,
        r / Real.sqrt (dot3 a a) * a.2.2) = r / Real.sqrt (dot3 a a) * dot3 a a := by
      unfold dot3; simp only; ring
    rw [this, mul_pow, div_pow, hsq, sq (dot3 a a)]
    field_simp

theorem lt_of_dot3 (a v : V3) {L x : ℝ} (hL : 0 < L) (h : |dot3 a v / L| < 1 / 2)
    (hx : dot3 a v ^ 2 = x) : x < (L / 2) ^ 2 := by
  rw [abs_div, abs_of_pos hL, div_lt_iff₀ hL] at h
  rw [← hx, ← sq_abs]
  exact pow_lt_pow_left₀ (by linarith) (abs_nonneg _) (by norm_num)

end Verif.Wave
