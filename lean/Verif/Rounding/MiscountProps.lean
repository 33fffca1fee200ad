import Verif.Rounding.OverlapProps
/-!
# C121: only whole fractions are ever miscounted
-/

namespace Verif.Rounding

/-- **C121, any fraction.**  For a fraction `a / b` of `n` molecules, with `n * b` up to 2^50, the number
taken is right unless the fraction of the molecules is a whole number; and then it is right exactly when
the product of floats is not below that number, and one too few otherwise. -/
theorem C121_exactly (n a b : ℕ) (hb : 0 < b) (hab : a ≤ b) (hn : n * b ≤ 2 ^ 50) :
    (¬ b ∣ n * a → numElements64 n (float64.fl ((a : ℝ) / b)) = (n * a / b : ℕ)) ∧
    (b ∣ n * a →
      (numElements64 n (float64.fl ((a : ℝ) / b)) = (n * a / b : ℕ) ↔
        ((n * a / b : ℕ) : ℝ) ≤ float64.fl (n * float64.fl ((a : ℝ) / b))) ∧
      (numElements64 n (float64.fl ((a : ℝ) / b)) = (n * a / b : ℕ) ∨
        numElements64 n (float64.fl ((a : ℝ) / b)) = (n * a / b : ℕ) - 1)) := by
  rcases Nat.eq_zero_or_pos n with rfl | hnpos
  · have h0 : numElements64 0 (float64.fl ((a : ℝ) / b)) = 0 := by
      unfold numElements64
      simp [fl_zero]
    rw [h0]
    simp [fl_zero]
  have hbR : (0 : ℝ) < b := by exact_mod_cast hb
  have hb1 : (1 : ℝ) ≤ b := by exact_mod_cast hb
  have hn1 : (1 : ℝ) ≤ n := by exact_mod_cast hnpos
  have hnb : (n : ℝ) * b ≤ 1125899906842624 := by
    have : n * b ≤ 1125899906842624 := hn
    exact_mod_cast this
  set q : ℝ := (a : ℝ) / b with hq
  have h0 : 0 ≤ q := by positivity
  have h1 : q ≤ 1 := by
    rw [hq, div_le_one hbR]
    exact_mod_cast hab
  have hn0 : (0 : ℝ) ≤ n := by linarith
  have e1 : (2 : ℝ) ^ (-53 : ℤ) = 1 / 9007199254740992 := by norm_num
  have e2 : (2 : ℝ) ^ (-1075 : ℤ) ≤ 1 / 9007199254740992 := by
    rw [← e1]
    exact zpow_le_zpow_right₀ (by norm_num) (by norm_num)
  have z0 : float64.fl 0 = 0 := fl_zero float64
  have f0 : 0 ≤ float64.fl q := by
    have := fl64_mono h0
    rwa [z0] at this
  have hqe := fl64_error q
  rw [abs_of_nonneg h0, e1] at hqe
  set f := float64.fl q with hf
  have hq' : |f - q| ≤ 2 / 9007199254740992 := by linarith
  obtain ⟨q1, q2⟩ := abs_le.1 hq'
  have hnf : 0 ≤ n * f := mul_nonneg hn0 f0
  have hnf1 : (n : ℝ) * f ≤ n + n := by
    have : (n : ℝ) * f ≤ n * (1 + 2 / 9007199254740992) := mul_le_mul_of_nonneg_left (by linarith) hn0
    linarith
  have hx := fl64_error (n * f)
  rw [abs_of_nonneg hnf, e1] at hx
  have hx0 : 0 ≤ float64.fl (n * f) := by
    have := fl64_mono hnf
    rwa [z0] at this
  set x := float64.fl (n * f) with hxdef
  obtain ⟨x1, x2⟩ := abs_le.1 hx
  have d1 : (n : ℝ) * (f - q) ≤ n * (2 / 9007199254740992) := mul_le_mul_of_nonneg_left q2 hn0
  have d2 : (n : ℝ) * (-(2 / 9007199254740992)) ≤ n * (f - q) := mul_le_mul_of_nonneg_left q1 hn0
  have herr : |x - n * q| ≤ 5 * n / 9007199254740992 := by
    rw [abs_le]
    constructor <;> linarith
  have hsmall : 5 * (n : ℝ) / 9007199254740992 < 1 / b := by
    rw [div_lt_div_iff₀ (by norm_num) hbR]
    linarith
  obtain ⟨y1, y2⟩ := abs_le.1 herr
  have hdm := Nat.div_add_mod (n * a) b
  set k := n * a / b with hk
  set r := n * a % b with hr
  have hrb : r < b := Nat.mod_lt _ hb
  have hnq : (n : ℝ) * q = k + r / b := by
    have : (n : ℝ) * a = b * k + r := by exact_mod_cast hdm.symm
    rw [hq, ← mul_div_assoc, this]
    field_simp
  have hval : numElements64 n f = ⌊x⌋ := by
    unfold numElements64
    simp only
    rw [if_pos hx0]
  rw [hval]
  have hle1 : (1 : ℝ) / b ≤ 1 := by rw [div_le_one hbR]; exact hb1
  constructor
  · intro hdvd
    have hr1 : 1 ≤ r := by
      rcases Nat.eq_zero_or_pos r with h | h
      · exact absurd (Nat.dvd_of_mod_eq_zero h) hdvd
      · exact h
    have r1 : (1 : ℝ) / b ≤ r / b := by
      apply div_le_div_of_nonneg_right _ hbR.le
      exact_mod_cast hr1
    have r2 : (r : ℝ) / b + 1 / b ≤ 1 := by
      rw [← add_div, div_le_one hbR]
      exact_mod_cast hrb
    rw [Int.floor_eq_iff]
    push_cast
    constructor <;> linarith
  · intro hdvd
    have hr0 : r = 0 := Nat.mod_eq_zero_of_dvd hdvd
    rw [hr0] at hnq
    simp only [Nat.cast_zero, zero_div, add_zero] at hnq
    by_cases hge : (k : ℝ) ≤ x
    · have : ⌊x⌋ = (k : ℤ) := by
        rw [Int.floor_eq_iff]
        push_cast
        exact ⟨hge, by linarith⟩
      exact ⟨⟨fun _ => hge, fun _ => this⟩, Or.inl this⟩
    · have : ⌊x⌋ = (k : ℤ) - 1 := by
        rw [Int.floor_eq_iff]
        push_cast
        constructor <;> linarith
      refine ⟨⟨fun h => ?_, fun h => absurd h hge⟩, Or.inr this⟩
      omega

/-- 0.29 of 110 molecules is not a whole number, and is counted right. -/
example : numElements64 110 (float64.fl ((29 : ℕ) / (100 : ℕ))) = 31 := by
  have := (C121_exactly 110 29 100 (by norm_num) (by norm_num) (by norm_num)).1 (by decide)
  simpa using this

end Verif.Rounding
