import Mathlib.Analysis.SpecialFunctions.Trigonometric.Bounds
import Mathlib.Algebra.Ring.GeomSum
import Verif.Dynamics.AxesLemmas
/-!
# Sums over the wave vectors
-/

namespace Verif.Dynamics

open Verif.Motion Complex

theorem root_ne_one {n : ℕ} (hn : 3 ≤ n) : Complex.exp (2 * Real.pi * I * (2 / n)) ≠ 1 := by
  intro h
  obtain ⟨k, hk⟩ := Complex.exp_eq_one_iff.1 h
  have hn' : (n : ℂ) ≠ 0 := by
    have : n ≠ 0 := by omega
    exact_mod_cast this
  have h2 : (2 * Real.pi * I : ℂ) ≠ 0 := Complex.two_pi_I_ne_zero
  have h3 : (2 / n : ℂ) = k := by
    apply mul_left_cancel₀ h2
    rw [hk]
    ring
  rw [div_eq_iff hn'] at h3
  have h4 : (2 : ℤ) = k * n := by exact_mod_cast h3
  have h5 : (n : ℤ) ∣ 2 := ⟨k, by rw [h4]; ring⟩
  have := Int.le_of_dvd (by norm_num) h5
  omega

theorem sum_root {n : ℕ} (hn : 3 ≤ n) :
    ∑ j ∈ Finset.range n, Complex.exp (2 * Real.pi * I * (2 / n)) ^ j = 0 := by
  have h := geom_sum_mul (Complex.exp (2 * Real.pi * I * (2 / n))) n
  have hn' : (n : ℂ) ≠ 0 := by
    have : n ≠ 0 := by omega
    exact_mod_cast this
  have h1 : Complex.exp (2 * Real.pi * I * (2 / n)) ^ n = 1 := by
    rw [← Complex.exp_nat_mul, Complex.exp_eq_one_iff]
    refine ⟨2, ?_⟩
    push_cast
    field_simp
  rw [h1, sub_self] at h
  exact (mul_eq_zero.1 h).resolve_right (sub_ne_zero.2 (root_ne_one hn))

theorem sum_cos_sin {n : ℕ} (hn : 3 ≤ n) :
    ∑ j ∈ Finset.range n, Real.cos (2 * (2 * Real.pi * j / n)) = 0 ∧
    ∑ j ∈ Finset.range n, Real.sin (2 * (2 * Real.pi * j / n)) = 0 := by
  have h := sum_root hn
  have e : ∀ j : ℕ, Complex.exp (2 * Real.pi * I * (2 / n)) ^ j =
      ⟨Real.cos (2 * (2 * Real.pi * j / n)), Real.sin (2 * (2 * Real.pi * j / n))⟩ := by
    intro j
    rw [← Complex.exp_nat_mul,
      show (j : ℂ) * (2 * Real.pi * I * (2 / n)) = ((2 * (2 * Real.pi * j / n) : ℝ) : ℂ) * I by
        push_cast; ring]
    apply Complex.ext
    · rw [Complex.exp_ofReal_mul_I_re]
    · rw [Complex.exp_ofReal_mul_I_im]
  simp only [e] at h
  constructor
  · have := congrArg Complex.re h
    simpa using this
  · have := congrArg Complex.im h
    simpa using this

/-- The wave vectors are spread evenly. -/
theorem sum_directions {n : ℕ} (hn : 3 ≤ n) (x y : ℝ) :
    ∑ j : Fin n, (Real.cos (2 * Real.pi * j / n) * x + Real.sin (2 * Real.pi * j / n) * y) ^ 2 =
      n / 2 * (x ^ 2 + y ^ 2) := by
  rw [Finset.sum_range (fun j : ℕ => (Real.cos (2 * Real.pi * j / n) * x + Real.sin (2 * Real.pi * j / n) * y) ^ 2) |>.symm]
  obtain ⟨h1, h2⟩ := sum_cos_sin hn
  have e : ∀ φ : ℝ, (Real.cos φ * x + Real.sin φ * y) ^ 2 =
      (x ^ 2 + y ^ 2) / 2 + Real.cos (2 * φ) * ((x ^ 2 - y ^ 2) / 2) + Real.sin (2 * φ) * (x * y) := by
    intro φ
    rw [Real.cos_two_mul, Real.sin_two_mul]
    have := Real.sin_sq_add_cos_sq φ
    have hs : Real.sin φ ^ 2 = 1 - Real.cos φ ^ 2 := by linarith
    ring_nf
    rw [hs]
    ring
  simp only [e]
  rw [Finset.sum_add_distrib, Finset.sum_add_distrib, ← Finset.sum_mul, ← Finset.sum_mul, h1, h2]
  simp
  ring

end Verif.Dynamics
