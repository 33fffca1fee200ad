import Mathlib.Analysis.Complex.ExponentialBounds
import Verif.Wave.CircleLemmas
import Verif.Dynamics.Spec
/-!
# The scattering function and the Bessel function
-/

namespace Verif.Wave

open Verif.Motion Verif.Dynamics

/-- The average over evenly spread directions and the molecules. -/
theorem directions_close {N : ℕ} (hN : 0 < N) {res : ℕ} (hres : 0 < res) (k : ℝ) (d : Fin N → V3)
    {z : ℝ} (hz : ∀ m, |k| * planar (d m) ≤ z) :
    |avg (fun j : Fin res => avg (fun m => Real.cos (k * (Real.cos (2 * Real.pi * j / res) * (d m).1 +
        Real.sin (2 * Real.pi * j / res) * (d m).2.1)))) - avg (fun m => bessel0 (k * planar (d m)))| ≤
      2 * (z ^ res * Real.exp z / res.factorial) := by
  have hN' : (0 : ℝ) < N := by exact_mod_cast hN
  have hres' : (0 : ℝ) < res := by exact_mod_cast hres
  have e2 : avg (fun j : Fin res => avg (fun m => Real.cos (k * (Real.cos (2 * Real.pi * j / res) * (d m).1 +
        Real.sin (2 * Real.pi * j / res) * (d m).2.1)))) = avg (fun m => (∑ j ∈ Finset.range res,
      Real.cos (k * along (d m).1 (d m).2.1 (2 * Real.pi * j / res))) / res) := by
    unfold avg along
    rw [← Finset.sum_div, ← Finset.sum_div, Finset.sum_comm, div_right_comm]
    congr 2
    apply Finset.sum_congr rfl
    intro m _
    rw [Finset.sum_range]
  rw [e2]
  simp only [planar, ← overCircle_eq]
  unfold avg
  rw [← sub_div, ← Finset.sum_sub_distrib, abs_div, abs_of_pos hN', div_le_iff₀ hN']
  refine (Finset.abs_sum_le_sum_abs _ _).trans ?_
  refine (Finset.sum_le_card_nsmul _ _ (2 * (z ^ res * Real.exp z / res.factorial)) fun m _ => ?_).trans ?_
  · refine circle_close hres k _ _ fun θ => ?_
    rw [abs_mul]
    exact (mul_le_mul_of_nonneg_left (along_le _ _ θ) (abs_nonneg k)).trans (hz m)
  · simp [mul_comm]

set_option exponentiation.threshold 500 in
/-- With 360 wave vectors, as in `process_file`, the bound is small for displacements up to 50 over the wave number. -/
theorem bound_360 : 2 * ((50 : ℝ) ^ 360 * Real.exp 50 / (Nat.factorial 360 : ℕ)) ≤ 1 / 10 ^ 100 := by
  have h1 : Real.exp 50 ≤ 3 ^ 50 := by
    have : Real.exp 50 = Real.exp 1 ^ 50 := by rw [← Real.exp_nat_mul]; norm_num
    rw [this]
    have := Real.exp_one_lt_d9
    gcongr
    linarith
  have h2 : 2 * (50 ^ 360 * 3 ^ 50) * 10 ^ 100 ≤ Nat.factorial 360 := by
    norm_num [Nat.factorial]
  have h3 : (2 * (50 ^ 360 * 3 ^ 50) * 10 ^ 100 : ℝ) ≤ (Nat.factorial 360 : ℕ) := by exact_mod_cast h2
  have hf : (0 : ℝ) < (Nat.factorial 360 : ℕ) := by exact_mod_cast Nat.factorial_pos _
  rw [← mul_div_assoc, div_le_div_iff₀ hf (by positivity), one_mul]
  refine le_trans ?_ h3
  gcongr

end Verif.Wave
