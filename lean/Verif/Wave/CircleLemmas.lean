import Mathlib.Analysis.SpecialFunctions.Exponential
import Mathlib.Analysis.SpecialFunctions.Trigonometric.Basic
import Mathlib.MeasureTheory.Integral.IntervalIntegral.Periodic
import Mathlib.Algebra.Ring.GeomSum
import Mathlib.Data.Nat.Choose.Sum
import Verif.Wave.CircleSpec
/-!
# Averages over evenly spread directions and over all of them
-/

namespace Verif.Wave

open Complex Finset

/-- The powers of a root of unity add up to nothing. -/
theorem sum_exp {n : ℕ} (hn : 0 < n) {l : ℤ} (hl : ¬ (n : ℤ) ∣ l) :
    ∑ j ∈ range n, Complex.exp (2 * Real.pi * I * (l / n)) ^ j = 0 := by
  have hn' : (n : ℂ) ≠ 0 := by exact_mod_cast hn.ne'
  have h := geom_sum_mul (Complex.exp (2 * Real.pi * I * (l / n))) n
  have h1 : Complex.exp (2 * Real.pi * I * (l / n)) ^ n = 1 := by
    rw [← Complex.exp_nat_mul, Complex.exp_eq_one_iff]
    exact ⟨l, by field_simp⟩
  have h2 : Complex.exp (2 * Real.pi * I * (l / n)) ≠ 1 := by
    intro h
    obtain ⟨k, hk⟩ := Complex.exp_eq_one_iff.1 h
    have h3 : (l / n : ℂ) = k := by
      apply mul_left_cancel₀ Complex.two_pi_I_ne_zero
      rw [hk]
      ring
    rw [div_eq_iff hn'] at h3
    have h4 : l = k * n := by exact_mod_cast h3
    exact hl ⟨k, by rw [h4]; ring⟩
  rw [h1, sub_self] at h
  exact (mul_eq_zero.1 h).resolve_right (sub_ne_zero.2 h2)

/-- A direction in terms of exponentials. -/
theorem along_eq (x y θ : ℝ) : ((along x y θ : ℝ) : ℂ) =
    ((x - y * I) * Complex.exp (θ * I) + (x + y * I) * Complex.exp (-(θ * I))) / 2 := by
  have h : -((θ : ℂ) * I) = ((-θ : ℝ) : ℂ) * I := by push_cast; ring
  rw [h, Complex.exp_mul_I, Complex.exp_mul_I, ← Complex.ofReal_cos, ← Complex.ofReal_sin,
    ← Complex.ofReal_cos, ← Complex.ofReal_sin, Real.cos_neg, Real.sin_neg]
  unfold along
  push_cast
  linear_combination ((y : ℂ) * Complex.sin θ) * Complex.I_sq

/-- Powers below the number of directions have the same sum wherever the directions start. -/
theorem sum_pow {n p : ℕ} (hp : p < n) (x y φ : ℝ) :
    ∑ j ∈ range n, ((along x y (2 * Real.pi * j / n + φ) : ℝ) : ℂ) ^ p =
      ∑ q ∈ range (p + 1), if 2 * q = p then
        n * ((x - y * I) ^ q * (x + y * I) ^ (p - q) * (p.choose q) / 2 ^ p) else 0 := by
  have hn : 0 < n := by omega
  have hn' : (n : ℂ) ≠ 0 := by exact_mod_cast hn.ne'
  have e : ∀ j : ℕ, ((along x y (2 * Real.pi * j / n + φ) : ℝ) : ℂ) ^ p =
      ∑ q ∈ range (p + 1), (x - y * I) ^ q * (x + y * I) ^ (p - q) * (p.choose q) / 2 ^ p *
        Complex.exp ((2 * q - p : ℤ) * φ * I) *
        Complex.exp (2 * Real.pi * I * ((2 * q - p : ℤ) / n)) ^ j := by
    intro j
    rw [along_eq, div_pow, add_pow, Finset.sum_div]
    apply Finset.sum_congr rfl
    intro q hq
    have hq' : q ≤ p := by simpa [Nat.lt_succ_iff] using hq
    have hexp : Complex.exp (((2 * Real.pi * j / n + φ : ℝ) : ℂ) * I) ^ q *
        Complex.exp (-(((2 * Real.pi * j / n + φ : ℝ) : ℂ) * I)) ^ (p - q) =
        Complex.exp ((2 * q - p : ℤ) * φ * I) *
        Complex.exp (2 * Real.pi * I * ((2 * q - p : ℤ) / n)) ^ j := by
      rw [← Complex.exp_nat_mul, ← Complex.exp_nat_mul, ← Complex.exp_nat_mul, ← Complex.exp_add,
        ← Complex.exp_add, Nat.cast_sub hq']
      congr 1
      push_cast
      field_simp
      ring
    rw [mul_pow, mul_pow]
    linear_combination ((x - y * I) ^ q * (x + y * I) ^ (p - q) * (p.choose q) / 2 ^ p : ℂ) * hexp
  simp only [e]
  rw [Finset.sum_comm]
  apply Finset.sum_congr rfl
  intro q hq
  have hq' : q ≤ p := by simpa [Nat.lt_succ_iff] using hq
  rw [← Finset.mul_sum]
  split_ifs with h
  · have h0 : (2 * (q : ℤ) - p : ℤ) = 0 := by omega
    rw [h0]
    simp
    ring
  · rw [sum_exp hn, mul_zero]
    rintro ⟨c, hc⟩
    have hc0 : c ≠ 0 := by
      rintro rfl
      omega
    have : (n : ℤ) ≤ |(n : ℤ) * c| := by
      rw [abs_mul]
      have := Int.one_le_abs hc0
      have h2 : |(n : ℤ)| = n := abs_of_nonneg (by omega)
      rw [h2]
      nlinarith
    rw [← hc] at this
    rcases abs_cases (2 * (q : ℤ) - p) with ⟨h1, _⟩ | ⟨h1, _⟩ <;> omega

/-- The tail of the exponential series. -/
theorem exp_tail {y : ℝ} (hy : 0 ≤ y) (n : ℕ) :
    Real.exp y - ∑ m ∈ range n, y ^ m / m.factorial ≤ y ^ n * Real.exp y / n.factorial := by
  have hs := NormedSpace.expSeries_div_hasSum_exp y
  rw [← Real.exp_eq_exp_ℝ] at hs
  have h1 := hs.summable.sum_add_tsum_nat_add n
  rw [hs.tsum_eq] at h1
  have hs2 := hs.mul_left (y ^ n / n.factorial)
  have h2 : ∑' m, y ^ (m + n) / (m + n).factorial ≤ y ^ n / n.factorial * Real.exp y := by
    rw [← hs2.tsum_eq]
    refine Summable.tsum_le_tsum (fun m => ?_) ((summable_nat_add_iff n).2 hs.summable) hs2.summable
    rw [pow_add, div_mul_div_comm, mul_comm (y ^ m)]
    gcongr
    have := Nat.factorial_mul_factorial_dvd_factorial_add n m
    rw [add_comm m n]
    exact_mod_cast Nat.le_of_dvd (Nat.factorial_pos _) this
  have h3 : y ^ n * Real.exp y / n.factorial = y ^ n / n.factorial * Real.exp y := by ring
  rw [h3]
  linarith

/-- What the exponential series is off by after `n` terms. -/
theorem exp_sub_le {z : ℝ} (n : ℕ) {t : ℝ} (ht : |t| ≤ z) :
    ‖Complex.exp (t * I) - ∑ p ∈ range n, (t * I) ^ p / p.factorial‖ ≤
      z ^ n * Real.exp z / n.factorial := by
  refine (Complex.norm_exp_sub_sum_le_exp_norm_sub_sum _ n).trans ?_
  have hn : ‖(t : ℂ) * I‖ = |t| := by simp
  rw [hn]
  refine (exp_tail (abs_nonneg t) n).trans ?_
  have hz : 0 ≤ z := (abs_nonneg t).trans ht
  gcongr

/-- Where the directions start makes little difference. -/
theorem sum_cos_shift {n : ℕ} (k x y φ : ℝ) {z : ℝ} (hz : ∀ θ, |k * along x y θ| ≤ z) :
    |∑ j ∈ range n, Real.cos (k * along x y (2 * Real.pi * j / n + φ)) -
      ∑ j ∈ range n, Real.cos (k * along x y (2 * Real.pi * j / n))| ≤
        n * (2 * (z ^ n * Real.exp z / n.factorial)) := by
  set B := z ^ n * Real.exp z / n.factorial with hB
  have hre : ∀ ψ : ℝ, ∑ j ∈ range n, Real.cos (k * along x y (2 * Real.pi * j / n + ψ)) =
      (∑ j ∈ range n, Complex.exp (((k * along x y (2 * Real.pi * j / n + ψ) : ℝ) : ℂ) * I)).re := by
    intro ψ
    rw [Complex.re_sum]
    apply Finset.sum_congr rfl
    intro j _
    rw [Complex.exp_ofReal_mul_I_re]
  have hpoly : ∀ ψ : ℝ, ∑ j ∈ range n, ∑ p ∈ range n,
      ((((k * along x y (2 * Real.pi * j / n + ψ) : ℝ) : ℂ) * I) ^ p / p.factorial) =
      ∑ p ∈ range n, (k * I) ^ p / p.factorial * ∑ q ∈ range (p + 1), if 2 * q = p then
        n * ((x - y * I) ^ q * (x + y * I) ^ (p - q) * (p.choose q) / 2 ^ p) else 0 := by
    intro ψ
    rw [Finset.sum_comm]
    apply Finset.sum_congr rfl
    intro p hp
    rw [← sum_pow (by simpa using hp) x y ψ, Finset.mul_sum]
    apply Finset.sum_congr rfl
    intro j _
    push_cast
    rw [mul_pow, mul_pow, mul_pow]
    ring
  have hbound : ∀ ψ : ℝ, ‖(∑ j ∈ range n,
      Complex.exp (((k * along x y (2 * Real.pi * j / n + ψ) : ℝ) : ℂ) * I)) -
      ∑ j ∈ range n, ∑ p ∈ range n,
      ((((k * along x y (2 * Real.pi * j / n + ψ) : ℝ) : ℂ) * I) ^ p / p.factorial)‖ ≤ n * B := by
    intro ψ
    rw [← Finset.sum_sub_distrib]
    refine (norm_sum_le _ _).trans ?_
    refine (Finset.sum_le_card_nsmul _ _ B fun j _ => exp_sub_le n (hz _)).trans ?_
    simp
  have h1 := hbound φ
  have h2 := hbound 0
  rw [hpoly] at h1 h2
  have h0 := hre 0
  simp only [add_zero] at h0
  rw [hre φ, h0, ← Complex.sub_re]
  refine (Complex.abs_re_le_norm _).trans ?_
  simp only [add_zero] at h2
  calc _ ≤ _ := norm_sub_le_norm_sub_add_norm_sub _ (∑ p ∈ range n, (k * I) ^ p / p.factorial *
        ∑ q ∈ range (p + 1), if 2 * q = p then
        n * ((x - y * I) ^ q * (x + y * I) ^ (p - q) * (p.choose q) / 2 ^ p) else 0) _
    _ ≤ n * B + n * B := add_le_add h1 (by rw [norm_sub_rev]; exact h2)
    _ = _ := by ring

open intervalIntegral in
/-- The average over evenly spread directions is close to the average over all directions. -/
theorem circle_close {n : ℕ} (hn : 0 < n) (k x y : ℝ) {z : ℝ} (hz : ∀ θ, |k * along x y θ| ≤ z) :
    |(∑ j ∈ range n, Real.cos (k * along x y (2 * Real.pi * j / n))) / n -
      (∫ θ in (0 : ℝ)..(2 * Real.pi), Real.cos (k * along x y θ)) / (2 * Real.pi)| ≤
        2 * (z ^ n * Real.exp z / n.factorial) := by
  have hn' : (0 : ℝ) < n := by exact_mod_cast hn
  have hpi := Real.pi_pos
  set f : ℝ → ℝ := fun θ => Real.cos (k * along x y θ) with hf
  have hcont : Continuous f := by
    unfold f along
    fun_prop
  have hper : Function.Periodic f (2 * Real.pi) := by
    intro θ
    simp only [hf, along, Real.cos_add_two_pi, Real.sin_add_two_pi]
  have hshift : ∀ a : ℝ, ∫ φ in (0 : ℝ)..(2 * Real.pi), f (a + φ) = ∫ θ in (0 : ℝ)..(2 * Real.pi), f θ := by
    intro a
    rw [intervalIntegral.integral_comp_add_left (fun t => f t) a, add_zero]
    have := hper.intervalIntegral_add_eq a 0
    rwa [zero_add] at this
  have hint : ∀ a : ℝ, IntervalIntegrable (fun φ => f (a + φ)) MeasureTheory.volume 0 (2 * Real.pi) :=
    fun a => (hcont.comp (by fun_prop)).intervalIntegrable _ _
  set S := ∑ j ∈ range n, f (2 * Real.pi * j / n) with hS
  set B := z ^ n * Real.exp z / n.factorial with hB
  have hsum : ∫ φ in (0 : ℝ)..(2 * Real.pi), (∑ j ∈ range n, f (2 * Real.pi * j / n + φ) - S) =
      n * (∫ θ in (0 : ℝ)..(2 * Real.pi), f θ) - 2 * Real.pi * S := by
    rw [intervalIntegral.integral_sub, intervalIntegral.integral_finsetSum]
    · simp [hshift]
    · intro j _
      exact hint _
    · exact (continuous_finsetSum _ fun j _ => hcont.comp (by fun_prop)).intervalIntegrable _ _
    · exact intervalIntegrable_const
  have hle := intervalIntegral.norm_integral_le_of_norm_le_const (a := 0) (b := 2 * Real.pi)
    (f := fun φ => ∑ j ∈ range n, f (2 * Real.pi * j / n + φ) - S) (C := n * (2 * B))
    (fun φ _ => sum_cos_shift k x y φ hz)
  rw [hsum, Real.norm_eq_abs, sub_zero, abs_of_pos (by positivity : 0 < 2 * Real.pi)] at hle
  have e : S / n - (∫ θ in (0 : ℝ)..(2 * Real.pi), f θ) / (2 * Real.pi) =
      -((n * (∫ θ in (0 : ℝ)..(2 * Real.pi), f θ) - 2 * Real.pi * S) / (n * (2 * Real.pi))) := by
    field_simp
    ring
  rw [e, abs_neg, abs_div, abs_of_pos (by positivity : 0 < (n : ℝ) * (2 * Real.pi)), div_le_iff₀ (by positivity)]
  linarith

/-- The average over all directions depends on the length of the displacement only. -/
theorem overCircle_eq (k x y : ℝ) : overCircle k x y = bessel0 (k * Real.sqrt (x ^ 2 + y ^ 2)) := by
  set w : ℂ := ⟨x, y⟩ with hw
  have hr : ‖w‖ = Real.sqrt (x ^ 2 + y ^ 2) := by
    rw [Complex.norm_def, Complex.normSq_apply]
    congr 1
    simp only [hw]
    ring
  have hx : ‖w‖ * Real.cos (Complex.arg w) = x := Complex.norm_mul_cos_arg w
  have hy : ‖w‖ * Real.sin (Complex.arg w) = y := Complex.norm_mul_sin_arg w
  have e : ∀ θ, along x y θ = ‖w‖ * Real.cos (θ - Complex.arg w) := by
    intro θ
    rw [Real.cos_sub]
    unfold along
    linear_combination (-Real.cos θ) * hx - Real.sin θ * hy
  unfold overCircle bessel0
  congr 1
  rw [← hr]
  simp only [e]
  have hper : Function.Periodic (fun θ => Real.cos (k * ‖w‖ * Real.cos θ)) (2 * Real.pi) := by
    intro θ
    simp only [Real.cos_add_two_pi]
  simp only [← mul_assoc]
  rw [intervalIntegral.integral_comp_sub_right (fun t => Real.cos (k * ‖w‖ * Real.cos t))]
  have := hper.intervalIntegral_add_eq (0 - Complex.arg w) 0
  rw [zero_add] at this
  rw [← this]
  congr 1
  ring

/-- No direction of a vector is longer than the vector. -/
theorem along_le (x y θ : ℝ) : |along x y θ| ≤ Real.sqrt (x ^ 2 + y ^ 2) := by
  apply Real.abs_le_sqrt
  unfold along
  have := Real.sin_sq_add_cos_sq θ
  nlinarith [sq_nonneg (Real.sin θ * x - Real.cos θ * y)]

end Verif.Wave
