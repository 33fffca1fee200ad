import Mathlib.Analysis.SpecialFunctions.ExpDeriv
import Mathlib.Analysis.SpecialFunctions.Log.Basic
import Mathlib.Analysis.Complex.ExponentialBounds
import Mathlib.Tactic.Linarith
import Mathlib.Tactic.Ring
import Mathlib.Tactic.FieldSimp
import Verif.RelaxTime.NewtonSpec
/-!
# Lemmas on Newton's method for a decay
-/

namespace Verif.RelaxTime

/-- One step in the coordinate `u = b (x - r)`. -/
theorem newton_step {b r x : ℝ} {a : ℝ} (hb : 0 < b) (ha : 0 < a) (hr : b * r = 1 + Real.log a) :
    exponentialDecay x a b (-(1 / Real.exp 1)) = (Real.exp (-(b * (x - r))) - 1) / Real.exp 1 ∧
    ddxExponentialDecay x a b (-(1 / Real.exp 1)) = -b * Real.exp (-(b * (x - r))) / Real.exp 1 ∧
    b * (x - exponentialDecay x a b (-(1 / Real.exp 1)) / ddxExponentialDecay x a b (-(1 / Real.exp 1)) - r) =
      b * (x - r) + 1 - Real.exp (b * (x - r)) := by
  have he : a * Real.exp (-b * x) = Real.exp (-(b * (x - r))) / Real.exp 1 := by
    rw [← Real.exp_sub]
    conv_lhs => rw [← Real.exp_log ha]
    rw [← Real.exp_add]
    congr 1
    linarith
  have h1 : exponentialDecay x a b (-(1 / Real.exp 1)) = (Real.exp (-(b * (x - r))) - 1) / Real.exp 1 := by
    unfold exponentialDecay
    rw [he]; ring
  have h2 : ddxExponentialDecay x a b (-(1 / Real.exp 1)) = -b * Real.exp (-(b * (x - r))) / Real.exp 1 := by
    unfold ddxExponentialDecay
    rw [mul_assoc, he]; ring
  refine ⟨h1, h2, ?_⟩
  rw [h1, h2]
  have e1 := (Real.exp_pos 1).ne'
  have e2 := (Real.exp_pos (-(b * (x - r)))).ne'
  have e3 : Real.exp (b * (x - r)) = (Real.exp (-(b * (x - r))))⁻¹ := by
    rw [← Real.exp_neg]; congr 1; ring
  rw [e3]
  field_simp
  ring

/-- The map of Newton's method in that coordinate. -/
theorem newton_map {u : ℝ} (h1 : -(1 / 2) ≤ u) (h2 : u ≤ 3 / 5) :
    u + 1 - Real.exp u ≤ 0 ∧ -(u ^ 2) ≤ u + 1 - Real.exp u ∧
    |u + 1 - Real.exp u| ≤ |Real.exp u - 1| ∧ |Real.exp u - 1| ≤ 2 * |u| := by
  have h3 := Real.add_one_le_exp u
  have habs : |u| ≤ 1 := by rw [abs_le]; constructor <;> linarith
  have h4 := Real.abs_exp_sub_one_sub_id_le habs
  rw [abs_le] at h4
  have h5 : -(u ^ 2) ≤ u + 1 - Real.exp u := by linarith [h4.2]
  refine ⟨by linarith, h5, ?_, ?_⟩
  · rw [abs_of_nonpos (by linarith)]
    rcases le_or_gt 0 u with hu | hu
    · rw [abs_of_nonneg (by linarith)]
      linarith
    · have : Real.exp u - 1 ≤ u / 2 := by nlinarith
      rw [abs_of_nonpos (by linarith)]
      linarith
  · exact Real.abs_exp_sub_one_le habs

/-- Newton's method converges: `n` steps after a start at `u` (in the coordinate of `newton_step`). -/
theorem newton_converges {a b r tol : ℝ} (hb : 0 < b) (ha : 0 < a) (hr : b * r = 1 + Real.log a)
    (htol : 0 < tol) (n : ℕ) : ∀ (x c : ℝ), 0 ≤ c → |b * (x - r)| ≤ c → -(1 / 2) ≤ b * (x - r) →
    b * (x - r) ≤ 3 / 5 → 2 * c ^ (2 ^ n) ≤ b * tol →
    ∃ p, newton (fun x => exponentialDecay x a b (-(1 / Real.exp 1)))
      (fun x => ddxExponentialDecay x a b (-(1 / Real.exp 1))) tol (n + 1) x = .ok (some p) ∧ |p - r| ≤ tol := by
  induction n with
  | zero =>
    intro x c hc h0 h1 h2 h3
    obtain ⟨e1, e2, e3⟩ := newton_step (x := x) hb ha hr
    obtain ⟨m1, m2, m3, m4⟩ := newton_map h1 h2
    set q := x - exponentialDecay x a b (-(1 / Real.exp 1)) / ddxExponentialDecay x a b (-(1 / Real.exp 1))
    have hqx : b * (q - x) = 1 - Real.exp (b * (x - r)) := by
      have : b * (q - x) = b * (q - r) - b * (x - r) := by ring
      rw [this, e3]; ring
    have habs : b * |q - x| = |Real.exp (b * (x - r)) - 1| := by
      rw [← abs_of_pos hb, ← abs_mul, abs_of_pos hb, hqx, abs_sub_comm]
    have hstep : |q - x| ≤ tol := by
      simp only [pow_zero, pow_one] at h3
      have : b * |q - x| ≤ b * tol := by rw [habs]; linarith
      exact le_of_mul_le_mul_left this hb
    by_cases hf : exponentialDecay x a b (-(1 / Real.exp 1)) = 0
    · refine ⟨x, by rw [newton]; simp only [if_pos hf], ?_⟩
      rw [e1, div_eq_zero_iff, or_iff_left (Real.exp_pos 1).ne', sub_eq_zero, Real.exp_eq_one_iff, neg_eq_zero,
        mul_eq_zero, or_iff_right hb.ne'] at hf
      rw [hf, abs_zero]; exact htol.le
    · have hd : ddxExponentialDecay x a b (-(1 / Real.exp 1)) ≠ 0 := by
        rw [e2]
        have := Real.exp_pos (-(b * (x - r)))
        have := Real.exp_pos 1
        refine div_ne_zero (mul_ne_zero (neg_ne_zero.2 hb.ne') (Real.exp_pos _).ne') (Real.exp_pos 1).ne'
      refine ⟨q, ?_, ?_⟩
      · simp only [newton, if_neg hf, if_neg hd]
        rw [if_pos hstep]
      · have : b * |q - r| ≤ b * |q - x| := by
          rw [habs]
          rw [← abs_of_pos hb, ← abs_mul, abs_of_pos hb, e3]
          exact m3
        exact (le_of_mul_le_mul_left this hb).trans hstep
  | succ n ih =>
    intro x c hc h0 h1 h2 h3
    obtain ⟨e1, e2, e3⟩ := newton_step (x := x) hb ha hr
    obtain ⟨m1, m2, m3, m4⟩ := newton_map h1 h2
    set q := x - exponentialDecay x a b (-(1 / Real.exp 1)) / ddxExponentialDecay x a b (-(1 / Real.exp 1)) with hq
    by_cases hf : exponentialDecay x a b (-(1 / Real.exp 1)) = 0
    · refine ⟨x, by rw [newton]; simp only [if_pos hf], ?_⟩
      rw [e1, div_eq_zero_iff, or_iff_left (Real.exp_pos 1).ne', sub_eq_zero, Real.exp_eq_one_iff, neg_eq_zero,
        mul_eq_zero, or_iff_right hb.ne'] at hf
      rw [hf, abs_zero]; exact htol.le
    · have hd : ddxExponentialDecay x a b (-(1 / Real.exp 1)) ≠ 0 := by
        rw [e2]
        refine div_ne_zero (mul_ne_zero (neg_ne_zero.2 hb.ne') (Real.exp_pos _).ne') (Real.exp_pos 1).ne'
      by_cases hstep : |q - x| ≤ tol
      · have hqx : b * (q - x) = 1 - Real.exp (b * (x - r)) := by
          have : b * (q - x) = b * (q - r) - b * (x - r) := by ring
          rw [this, e3]; ring
        have habs : b * |q - x| = |Real.exp (b * (x - r)) - 1| := by
          rw [← abs_of_pos hb, ← abs_mul, abs_of_pos hb, hqx, abs_sub_comm]
        refine ⟨q, ?_, ?_⟩
        · rw [newton]
          simp only [if_neg hf, if_neg hd]
          rw [if_pos hstep]
        · have : b * |q - r| ≤ b * |q - x| := by
            rw [habs]
            rw [← abs_of_pos hb, ← abs_mul, abs_of_pos hb, e3]
            exact m3
          exact (le_of_mul_le_mul_left this hb).trans hstep
      · obtain ⟨p, p1, p2⟩ := ih q (c ^ 2) (by positivity) (by
          rw [e3, abs_of_nonpos m1]
          have : (b * (x - r)) ^ 2 ≤ c ^ 2 := by
            rw [← sq_abs (b * (x - r))]
            exact pow_le_pow_left₀ (abs_nonneg _) h0 2
          linarith) (by rw [e3]; nlinarith) (by rw [e3]; linarith) (by
          rw [← pow_mul, ← pow_succ']
          exact h3)
        refine ⟨p, ?_, p2⟩
        rw [newton]
        simp only [if_neg hf, if_neg hd]
        rw [if_neg hstep]
        exact p1

/-- `(3/5) ^ (2 ^ 19)` is very small. -/
theorem tiny : 2 * ((3 : ℝ) / 5) ^ (2 ^ 19) ≤ (1 / 10) ^ 1000 * (1 / 10000) := by
  have h1 : ((3 : ℝ) / 5) ^ (2 ^ 19) ≤ (3 / 5) ^ (5 * 1005) :=
    pow_le_pow_of_le_one (by norm_num) (by norm_num)
      (le_trans (by norm_num) (Nat.pow_le_pow_right (n := 2) (by norm_num) (show 13 ≤ 19 by norm_num)))
  have h2 : ((3 : ℝ) / 5) ^ (5 * 1005) ≤ (1 / 10) ^ 1005 := by
    rw [pow_mul]
    exact pow_le_pow_left₀ (by norm_num) (by norm_num) _
  have h3 : ((1 : ℝ) / 10) ^ 1005 = (1 / 10) ^ 1000 * (1 / 10) ^ 5 := by rw [← pow_add]
  have h4 : (0 : ℝ) < (1 / 10) ^ 1000 := by positivity
  have h5 : 2 * ((1 : ℝ) / 10) ^ 5 ≤ 1 / 10000 := by norm_num
  calc 2 * ((3 : ℝ) / 5) ^ (2 ^ 19) ≤ 2 * ((1 / 10) ^ 1000 * (1 / 10) ^ 5) := by rw [← h3]; linarith [h1.trans h2]
    _ = (1 / 10) ^ 1000 * (2 * (1 / 10) ^ 5) := by ring
    _ ≤ (1 / 10) ^ 1000 * (1 / 10000) := mul_le_mul_of_nonneg_left h5 h4.le

/-- A value near 1/e is near the root. -/
theorem near_root {a b r x : ℝ} (hb : 0 < b) (ha : 0 < a) (hr : b * r = 1 + Real.log a)
    (h1 : 1 / Real.exp 1 - 3 / 20 < a * Real.exp (-b * x)) (h2 : a * Real.exp (-b * x) < 1 / Real.exp 1 + 3 / 20) :
    -(1 / 2) ≤ b * (x - r) ∧ b * (x - r) ≤ 3 / 5 := by
  have he := Real.exp_one_lt_d9
  have hp := Real.exp_pos 1
  have e1 := (newton_step (x := x) hb ha hr).1
  unfold exponentialDecay at e1
  have h3 : a * Real.exp (-b * x) = Real.exp (-(b * (x - r))) / Real.exp 1 := by
    have : a * Real.exp (-b * x) = (Real.exp (-(b * (x - r))) - 1) / Real.exp 1 + 1 / Real.exp 1 := by linarith
    rw [this]; ring
  rw [h3] at h1 h2
  set y := Real.exp (-(b * (x - r))) with hy
  have h1' : 1 - 3 / 20 * Real.exp 1 < y := by
    have := mul_lt_mul_of_pos_right h1 hp
    field_simp at this
    linarith
  have h2' : y < 1 + 3 / 20 * Real.exp 1 := by
    have := mul_lt_mul_of_pos_right h2 hp
    field_simp at this
    linarith
  constructor
  · by_contra hc
    push Not at hc
    have : Real.exp (1 / 2) ≤ y := by
      rw [hy]; apply Real.exp_le_exp.2; linarith
    have hq := Real.quadratic_le_exp_of_nonneg (show (0 : ℝ) ≤ 1 / 2 by norm_num)
    norm_num at hq
    linarith
  · by_contra hc
    push Not at hc
    have : y ≤ Real.exp (-(3 / 5)) := by
      rw [hy]; apply Real.exp_le_exp.2; linarith
    have hq := Real.quadratic_le_exp_of_nonneg (show (0 : ℝ) ≤ 3 / 5 by norm_num)
    norm_num at hq
    have hm : Real.exp (-(3 / 5)) * Real.exp (3 / 5) = 1 := by rw [← Real.exp_add]; norm_num
    have hpos := Real.exp_pos (-(3 / 5))
    nlinarith

end Verif.RelaxTime
