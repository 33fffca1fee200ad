import Mathlib.Analysis.Real.Pi.Bounds
import Verif.Angle.Lemmas
import Verif.Rounding.AngleModel
import Verif.Rounding.TurnLemmas
/-!
# Lemmas on angles of float32
-/

namespace Verif.Rounding

open Quaternion Verif.Motion

/-- The argument of a number near the ray of angle `θ`, up to the cut. -/
theorem arg_close {P : ℂ} {θ κ τ : ℝ} (hκ : κ < 1)
    (hre : 1 - κ ≤ P.re * Real.cos θ + P.im * Real.sin θ)
    (him : |P.im * Real.cos θ - P.re * Real.sin θ| ≤ τ)
    (hb : (0 ≤ θ ∧ θ ≤ Real.pi ∧ 0 ≤ P.im) ∨ (-(Real.pi / 2) ≤ θ ∧ θ ≤ 0) ∨
      (-Real.pi < θ ∧ θ ≤ 0 ∧ P.im < 0)) : |Complex.arg P - θ| ≤ τ / (1 - κ) := by
  have hτ : 0 ≤ τ := (abs_nonneg _).trans him
  set w : ℂ := P * Complex.exp (-(θ * Complex.I)) with hw
  have hexp : Complex.exp (θ * Complex.I) * Complex.exp (-(θ * Complex.I)) = 1 := by
    rw [← Complex.exp_add, add_neg_cancel, Complex.exp_zero]
  have hE : -((θ : ℂ) * Complex.I) = ((-θ : ℝ) : ℂ) * Complex.I := by push_cast; ring
  have hwre : w.re = P.re * Real.cos θ + P.im * Real.sin θ := by
    rw [hw, hE, Complex.mul_re, Complex.exp_ofReal_mul_I_re, Complex.exp_ofReal_mul_I_im, Real.cos_neg,
      Real.sin_neg]
    ring
  have hwim : w.im = P.im * Real.cos θ - P.re * Real.sin θ := by
    rw [hw, hE, Complex.mul_im, Complex.exp_ofReal_mul_I_re, Complex.exp_ofReal_mul_I_im, Real.cos_neg,
      Real.sin_neg]
    ring
  rw [← hwre] at hre
  rw [← hwim] at him
  have hpos : 0 < w.re := by linarith
  have hw0 : w ≠ 0 := by
    intro h; rw [h] at hpos; simp at hpos
  have hlt : |Complex.arg w| < Real.pi / 2 :=
    Complex.abs_arg_lt_pi_div_two_iff.2 (Or.inl hpos)
  have harg : |Complex.arg w| ≤ τ / (1 - κ) := by
    have h1 : |Complex.arg w| ≤ Real.tan |Complex.arg w| := Real.le_tan (abs_nonneg _) hlt
    have h2 : Real.tan |Complex.arg w| = |w.im / w.re| := by
      rw [← Complex.tan_arg]
      rcases le_total 0 (Complex.arg w) with h | h
      · rw [abs_of_nonneg h, abs_of_nonneg (Real.tan_nonneg_of_nonneg_of_le_pi_div_two h
          (by rw [abs_of_nonneg h] at hlt; exact hlt.le))]
      · have hn := Real.tan_nonneg_of_nonneg_of_le_pi_div_two (x := -Complex.arg w) (by linarith)
          (by rw [abs_of_nonpos h] at hlt; exact hlt.le)
        rw [Real.tan_neg] at hn
        rw [abs_of_nonpos h, Real.tan_neg, abs_of_nonpos (by linarith)]
    rw [h2, abs_div, abs_of_pos hpos] at h1
    exact h1.trans (div_le_div₀ hτ him (by linarith) hre)
  have hz' : P = (‖w‖ : ℂ) * (Complex.cos ((Complex.arg w + θ : ℝ) : ℂ) +
      Complex.sin ((Complex.arg w + θ : ℝ) : ℂ) * Complex.I) := by
    have h1 : P = w * Complex.exp (θ * Complex.I) := by
      rw [hw, mul_assoc, mul_comm (Complex.exp (-(θ * Complex.I))), hexp, mul_one]
    rw [← Complex.exp_mul_I]
    push_cast
    rw [add_mul, Complex.exp_add, ← mul_assoc, Complex.norm_mul_exp_arg_mul_I]
    exact h1
  have hwn : 0 < ‖w‖ := norm_pos_iff.2 hw0
  have hPim : P.im = ‖w‖ * Real.sin (Complex.arg w + θ) := by
    have h := congrArg Complex.im hz'
    rw [← Complex.ofReal_cos, ← Complex.ofReal_sin, Complex.im_ofReal_mul, Complex.add_im,
      Complex.ofReal_im, zero_add, Complex.im_ofReal_mul, Complex.I_im, mul_one] at h
    exact h
  have hl := abs_lt.1 hlt
  have hpi := Real.pi_pos
  have hin : Complex.arg w + θ ∈ Set.Ioc (-Real.pi) Real.pi := by
    rcases hb with ⟨h1, h2, h3⟩ | ⟨h1, h2⟩ | ⟨h1, h2, h3⟩
    · refine ⟨by linarith, ?_⟩
      by_contra hc
      push Not at hc
      have hs : Real.sin (Complex.arg w + θ) < 0 := by
        have := Real.sin_neg_of_neg_of_neg_pi_lt (x := Complex.arg w + θ - 2 * Real.pi) (by linarith)
          (by linarith)
        rwa [Real.sin_sub_two_pi] at this
      have := mul_neg_of_pos_of_neg hwn hs
      linarith
    · exact ⟨by linarith, by linarith⟩
    · refine ⟨?_, by linarith⟩
      by_contra hc
      push Not at hc
      have hs : 0 ≤ Real.sin (Complex.arg w + θ) := by
        have := Real.sin_nonneg_of_nonneg_of_le_pi (x := Complex.arg w + θ + 2 * Real.pi) (by linarith)
          (by linarith)
        rwa [Real.sin_add_two_pi] at this
      have := mul_nonneg hwn.le hs
      linarith
  have := Complex.arg_mul_cos_add_sin_mul_I (r := ‖w‖) hwn hin
  rw [← hz'] at this
  rw [this, add_sub_cancel_right]
  exact harg

/-- Clipping a coordinate of a point near the unit circle hardly turns it. -/
theorem clip1_turn {Y s c : ℝ} (hsc : s ^ 2 + c ^ 2 = 1) (hY : |Y - s| ≤ 5e-7) :
    |clip1 Y - Y| * |c| ≤ 5e-10 := by
  by_cases h : |Y| ≤ 1
  · have h' := abs_le.1 h
    have : clip1 Y = Y := by unfold clip1; rw [min_eq_right h'.2, max_eq_right h'.1]
    rw [this, sub_self, abs_zero, zero_mul]; norm_num
  · push Not at h
    have hs1 : |s| ≤ 1 := by rw [abs_le]; constructor <;> nlinarith
    have h1 : |clip1 Y - Y| ≤ 5e-7 := by
      have e : |clip1 Y - Y| = |Y| - 1 := by
        unfold clip1
        rcases lt_abs.1 h with h2 | h2
        · rw [min_eq_left h2.le, max_eq_right (by norm_num), abs_of_nonpos (by linarith),
            abs_of_pos (by linarith)]
          ring
        · rw [min_eq_right (by linarith), max_eq_left (by linarith), abs_of_nonneg (by linarith),
            abs_of_neg (by linarith)]
          ring
      rw [e]
      have := abs_sub_abs_le_abs_sub Y s
      linarith
    have h2 : |c| ≤ 1e-3 := by
      have h3 : 1 - 5e-7 ≤ |s| := by
        have := abs_sub_abs_le_abs_sub Y s
        linarith
      have h4 : s ^ 2 = |s| ^ 2 := (sq_abs s).symm
      apply abs_le_of_sq_le_sq _ (by norm_num)
      nlinarith
    calc _ ≤ (5e-7 : ℝ) * 1e-3 := mul_le_mul h1 h2 (abs_nonneg _) (by norm_num)
      _ = 5e-10 := by norm_num

theorem square_bounds {A B : ℝ} (hA : |A - 1| ≤ 7e-8) (hB : |B| ≤ 7e-8) :
    |A ^ 2 - B ^ 2 - 1| ≤ 2e-7 ∧ |2 * A * B| ≤ 2e-7 := by
  have a1 : |A + 1| ≤ 2.1 := by
    have := abs_le.1 hA
    rw [abs_le]; constructor <;> norm_num at * <;> linarith
  have a2 : |2 * A| ≤ 2.1 := by
    have := abs_le.1 hA
    rw [abs_le]; constructor <;> norm_num at * <;> linarith
  constructor
  · rw [show A ^ 2 - B ^ 2 - 1 = (A - 1) * (A + 1) - B * B by ring]
    refine (abs_sub _ _).trans ?_
    rw [abs_mul, abs_mul]
    have b1 : |A - 1| * |A + 1| ≤ 7e-8 * 2.1 := mul_le_mul hA a1 (abs_nonneg _) (by norm_num)
    have b2 : |B| * |B| ≤ 7e-8 * 7e-8 := mul_le_mul hB hB (abs_nonneg _) (by norm_num)
    norm_num at *
    linarith
  · rw [abs_mul]
    have b1 : |2 * A| * |B| ≤ 2.1 * 7e-8 := mul_le_mul a2 hB (abs_nonneg _) (by norm_num)
    norm_num at *
    linarith

set_option maxHeartbeats 1000000 in
/-- The clipped square of a number near the unit circle, turned back. -/
theorem square_close {c s e1 e2 u η : ℝ} (hcs : c ^ 2 + s ^ 2 = 1) (hu : 0 ≤ u) (hu' : u ≤ 6e-8)
    (hη : 0 ≤ η) (hη' : η ≤ 1e-20) (h1 : |e1| ≤ u * |c| + η) (h2 : |e2| ≤ u * |s| + η) :
    let X := clip1 ((c + e1) ^ 2 - (s + e2) ^ 2)
    let Y := clip1 (2 * ((c + e1) * (s + e2)))
    1 - 1e-6 ≤ X * (c ^ 2 - s ^ 2) + Y * (2 * c * s) ∧
      |Y * (c ^ 2 - s ^ 2) - X * (2 * c * s)| ≤ 2 * u * |2 * c * s| + 1.1e-9 := by
  intro X Y
  set A := c * (c + e1) + s * (s + e2) with hA
  set B := c * (s + e2) - s * (c + e1) with hB
  have hc1 : |c| ≤ 1 := by rw [abs_le]; constructor <;> nlinarith
  have hs1 : |s| ≤ 1 := by rw [abs_le]; constructor <;> nlinarith
  have hcc : |c| * |c| = c ^ 2 := by rw [← abs_mul, abs_of_nonneg (mul_self_nonneg c)]; ring
  have hss : |s| * |s| = s ^ 2 := by rw [← abs_mul, abs_of_nonneg (mul_self_nonneg s)]; ring
  have hA1 : |A - 1| ≤ u + 2 * η := by
    have e : A - 1 = c * e1 + s * e2 := by rw [hA]; linear_combination hcs
    rw [e]
    refine (abs_add_le _ _).trans ?_
    rw [abs_mul, abs_mul]
    have a1 := mul_le_mul_of_nonneg_left h1 (abs_nonneg c)
    have a2 := mul_le_mul_of_nonneg_left h2 (abs_nonneg s)
    have a3 : |c| * η ≤ η := mul_le_of_le_one_left hη hc1
    have a4 : |s| * η ≤ η := mul_le_of_le_one_left hη hs1
    have a5 : |c| * (u * |c|) + |s| * (u * |s|) = u := by
      calc _ = u * (|c| * |c| + |s| * |s|) := by ring
        _ = u := by rw [hcc, hss, hcs, mul_one]
    nlinarith
  have hB1 : |B| ≤ u * |2 * c * s| + 2 * η := by
    have e : B = c * e2 - s * e1 := by rw [hB]; ring
    rw [e]
    refine (abs_sub _ _).trans ?_
    rw [abs_mul, abs_mul, abs_mul, abs_mul, abs_two]
    have a1 := mul_le_mul_of_nonneg_left h2 (abs_nonneg c)
    have a2 := mul_le_mul_of_nonneg_left h1 (abs_nonneg s)
    have a3 : |c| * η ≤ η := mul_le_of_le_one_left hη hc1
    have a4 : |s| * η ≤ η := mul_le_of_le_one_left hη hs1
    nlinarith
  have hsin : |2 * c * s| ≤ 1 := by rw [abs_le]; constructor <;> nlinarith [sq_nonneg (c - s), sq_nonneg (c + s)]
  have hcos : |c ^ 2 - s ^ 2| ≤ 1 := by
    rw [abs_le]; constructor <;> nlinarith [sq_nonneg c, sq_nonneg s]
  have hunit : (2 * c * s) ^ 2 + (c ^ 2 - s ^ 2) ^ 2 = 1 := by
    have : (2 * c * s) ^ 2 + (c ^ 2 - s ^ 2) ^ 2 = (c ^ 2 + s ^ 2) ^ 2 := by ring
    rw [this, hcs, one_pow]
  have hBs : |B| ≤ 7e-8 := by
    have : u * |2 * c * s| ≤ u := mul_le_of_le_one_right hu hsin
    norm_num at *
    linarith
  have hAs : |A - 1| ≤ 7e-8 := by
    norm_num at *
    linarith
  obtain ⟨hA2, hA3⟩ := abs_le.1 hAs
  obtain ⟨hB2, hB3⟩ := abs_le.1 hBs
  -- the square, turned back
  have t1 : ((c + e1) ^ 2 - (s + e2) ^ 2) * (c ^ 2 - s ^ 2) + 2 * ((c + e1) * (s + e2)) * (2 * c * s) =
      A ^ 2 - B ^ 2 := by rw [hA, hB]; ring
  have t2 : 2 * ((c + e1) * (s + e2)) * (c ^ 2 - s ^ 2) - ((c + e1) ^ 2 - (s + e2) ^ 2) * (2 * c * s) =
      2 * A * B := by rw [hA, hB]; ring
  obtain ⟨hW1, hW2⟩ := square_bounds hAs hBs
  -- the coordinates themselves
  have x1 : (c + e1) ^ 2 - (s + e2) ^ 2 - (c ^ 2 - s ^ 2) =
      (A ^ 2 - B ^ 2 - 1) * (c ^ 2 - s ^ 2) - 2 * A * B * (2 * c * s) := by
    rw [← t1, ← t2]
    linear_combination (-((c + e1) ^ 2 - (s + e2) ^ 2)) * hunit
  have y1 : 2 * ((c + e1) * (s + e2)) - 2 * c * s =
      (A ^ 2 - B ^ 2 - 1) * (2 * c * s) + 2 * A * B * (c ^ 2 - s ^ 2) := by
    rw [← t1, ← t2]
    linear_combination (-(2 * ((c + e1) * (s + e2)))) * hunit
  have prod (a b : ℝ) (ha : |a| ≤ 2e-7) (hb : |b| ≤ 1) : |a * b| ≤ 2e-7 := by
    rw [abs_mul]
    calc _ ≤ (2e-7 : ℝ) * 1 := mul_le_mul ha hb (abs_nonneg _) (by norm_num)
      _ = _ := mul_one _
  have hX0 : |(c + e1) ^ 2 - (s + e2) ^ 2 - (c ^ 2 - s ^ 2)| ≤ 5e-7 := by
    rw [x1]
    refine (abs_sub _ _).trans ?_
    have p1 := prod _ _ hW1 hcos
    have p2 := prod _ _ hW2 hsin
    norm_num at *
    linarith
  have hY0 : |2 * ((c + e1) * (s + e2)) - 2 * c * s| ≤ 5e-7 := by
    rw [y1]
    refine (abs_add_le _ _).trans ?_
    have p1 := prod _ _ hW1 hsin
    have p2 := prod _ _ hW2 hcos
    norm_num at *
    linarith
  have hXn : |X - (c ^ 2 - s ^ 2)| ≤ 5e-7 := (clip1_near hcos).trans hX0
  have hYn : |Y - 2 * c * s| ≤ 5e-7 := (clip1_near hsin).trans hY0
  have hXt := clip1_turn (s := c ^ 2 - s ^ 2) (c := 2 * c * s) (by linarith) hX0
  have hYt := clip1_turn (s := 2 * c * s) (c := c ^ 2 - s ^ 2) hunit hY0
  constructor
  · have e : X * (c ^ 2 - s ^ 2) + Y * (2 * c * s) = 1 + (X - (c ^ 2 - s ^ 2)) * (c ^ 2 - s ^ 2) +
        (Y - 2 * c * s) * (2 * c * s) := by linear_combination hunit
    have p (a b : ℝ) (ha : |a| ≤ 5e-7) (hb : |b| ≤ 1) : -5e-7 ≤ a * b := by
      have : |a * b| ≤ 5e-7 := by
        rw [abs_mul]
        calc _ ≤ (5e-7 : ℝ) * 1 := mul_le_mul ha hb (abs_nonneg _) (by norm_num)
          _ = _ := mul_one _
      exact (abs_le.1 this).1
    have p1 := p _ _ hXn hcos
    have p2 := p _ _ hYn hsin
    rw [e]
    norm_num at *
    linarith
  · have e : Y * (c ^ 2 - s ^ 2) - X * (2 * c * s) = 2 * A * B +
        ((Y - 2 * ((c + e1) * (s + e2))) * (c ^ 2 - s ^ 2) -
          (X - ((c + e1) ^ 2 - (s + e2) ^ 2)) * (2 * c * s)) := by rw [← t2]; ring
    rw [e]
    refine (abs_add_le _ _).trans ?_
    have q1 : |(Y - 2 * ((c + e1) * (s + e2))) * (c ^ 2 - s ^ 2) -
        (X - ((c + e1) ^ 2 - (s + e2) ^ 2)) * (2 * c * s)| ≤ 5e-10 + 5e-10 := by
      refine (abs_sub _ _).trans ?_
      rw [abs_mul, abs_mul (X - _)]
      exact add_le_add hYt hXt
    have q2 : |2 * A * B| ≤ 2 * u * |2 * c * s| + 1e-12 := by
      rw [abs_mul, abs_mul, abs_two]
      have a1 : |A| ≤ 1 + 7e-8 := by rw [abs_le]; constructor <;> linarith
      have a2 : 2 * |A| * |B| ≤ 2 * (1 + 7e-8) * (u * |2 * c * s| + 2 * η) := by
        apply mul_le_mul _ hB1 (abs_nonneg _) (by norm_num)
        linarith
      have a3 : u * |2 * c * s| ≤ u := mul_le_of_le_one_right hu hsin
      norm_num at *
      linarith
    norm_num at *
    linarith

theorem clip1_nonneg {x : ℝ} (h : 0 ≤ x) : 0 ≤ clip1 x := by
  unfold clip1
  exact le_max_of_le_right (le_min zero_le_one h)

theorem clip1_neg {x : ℝ} (h : x < 0) : clip1 x < 0 := by
  unfold clip1
  exact max_lt (by norm_num) ((min_le_right _ _).trans_lt h)

theorem fl32_mono {x y : ℝ} (h : x ≤ y) : float32.fl x ≤ float32.fl y :=
  (fl_nearest float32 (by decide)).mono h

theorem fl32_nonneg {x : ℝ} (h : 0 ≤ x) : 0 ≤ float32.fl x := by
  have := fl32_mono h
  rwa [fl_zero] at this

theorem fl32_pow {e : ℤ} (he : -149 ≤ e) : float32.fl (2 ^ e) = 2 ^ e :=
  fl_exact float32 (by decide) ⟨1, e, by norm_num [float32], he, by simp⟩

theorem fl32_error (x : ℝ) : |float32.fl x - x| ≤ 2 ^ (-24 : ℤ) * |x| + 2 ^ (-150 : ℤ) := by
  have h := fl_rel float32 x
  rwa [show -((float32.digits : ℕ) : ℤ) = -24 from rfl, show float32.emin - 1 = -150 from rfl] at h

/-- The angle read off the rounded quaternion of `θ`. -/
theorem stored_angle {tol : Tolerance} (ht : tol.gimbal < 1) {θ : ℝ} (h1 : -Real.pi + 2 ^ (-146 : ℤ) ≤ θ)
    (h2 : θ ≤ Real.pi) : ∃ a, toEuler32 tol (flQ (zRot θ)) = (a, 0, 0) ∧
      |a - θ| ≤ 2.001 * 2 ^ (-24 : ℤ) * |Real.sin θ| + 1.2e-9 := by
  have hpi := Real.pi_pos
  have hpi4 : Real.pi < 4 := by have := Real.pi_lt_d2; linarith
  have hnear := flQ_near θ (σ := 1) (Or.inl rfl)
  rw [one_smul] at hnear
  have hplanar := hnear.planar
  set c := Real.cos (θ / 2) with hc
  set s := Real.sin (θ / 2) with hs
  have hcs : c ^ 2 + s ^ 2 = 1 := Real.cos_sq_add_sin_sq _
  have hcosθ : Real.cos θ = c ^ 2 - s ^ 2 := by
    rw [hc, hs, ← Real.cos_two_mul']; congr 1; ring
  have hsinθ : Real.sin θ = 2 * c * s := by
    rw [hc, hs, mul_right_comm, ← Real.sin_two_mul]; congr 1; ring
  have hw : (toC (flQ (zRot θ))).re = c + (float32.fl c - c) := by
    change float32.fl c = _; ring
  have hz : (toC (flQ (zRot θ))).im = s + (float32.fl s - s) := by
    change float32.fl s = _; ring
  have hsq1 : (toC (flQ (zRot θ)) ^ 2).re = (c + (float32.fl c - c)) ^ 2 - (s + (float32.fl s - s)) ^ 2 := by
    rw [pow_two, Complex.mul_re, hw, hz]; ring
  have hsq2 : (toC (flQ (zRot θ)) ^ 2).im = 2 * ((c + (float32.fl c - c)) * (s + (float32.fl s - s))) := by
    rw [pow_two, Complex.mul_im, hw, hz]; ring
  obtain ⟨k1, k2⟩ := square_close hcs (u := 2 ^ (-24 : ℤ)) (η := 2 ^ (-150 : ℤ)) (by positivity)
    (by norm_num) (by positivity) (by norm_num) (fl32_error c) (fl32_error s)
  rw [← hsq1, ← hsq2, ← hcosθ, ← hsinθ] at k1 k2
  have h0 : toC (flQ (zRot θ)) ≠ 0 := by
    obtain ⟨σ, hσ, hn⟩ := hnear.toC (by positivity)
    intro h
    rw [h, zero_sub, norm_neg, norm_mul, Complex.norm_exp_ofReal_mul_I, mul_one] at hn
    rcases hσ with rfl | rfl <;> norm_num at hn
  refine ⟨_, toEuler32_planar ht hplanar h0, ?_⟩
  have hclose := arg_close (P := ⟨clip1 (toC (flQ (zRot θ)) ^ 2).re, clip1 (toC (flQ (zRot θ)) ^ 2).im⟩)
    (θ := θ) (κ := 1e-6) (by norm_num) k1 k2 ?_
  · refine hclose.trans ?_
    rw [div_le_iff₀ (by norm_num)]
    have := abs_nonneg (Real.sin θ)
    norm_num only at ⊢
    linarith
  · change (0 ≤ θ ∧ θ ≤ Real.pi ∧ 0 ≤ clip1 (toC (flQ (zRot θ)) ^ 2).im) ∨ _ ∨
      (-Real.pi < θ ∧ θ ≤ 0 ∧ clip1 (toC (flQ (zRot θ)) ^ 2).im < 0)
    rw [hsq2, add_sub_cancel, add_sub_cancel]
    rcases le_total 0 θ with h | h
    · left
      refine ⟨h, h2, clip1_nonneg ?_⟩
      have a1 : 0 ≤ float32.fl c := fl32_nonneg (Real.cos_nonneg_of_neg_pi_div_two_le_of_le (by linarith)
        (by linarith))
      have a2 : 0 ≤ float32.fl s := fl32_nonneg (Real.sin_nonneg_of_nonneg_of_le_pi (by linarith)
        (by linarith))
      positivity
    · right
      by_cases h3 : -(Real.pi / 2) ≤ θ
      · exact Or.inl ⟨h3, h⟩
      · right
        push Not at h3
        have hp : (0 : ℝ) < 2 ^ (-146 : ℤ) := by positivity
        refine ⟨by linarith, h, clip1_neg ?_⟩
        have a1 : (2 : ℝ) ^ (-149 : ℤ) ≤ c := by
          have b1 : c = Real.sin ((Real.pi + θ) / 2) := by
            rw [hc, ← Real.sin_pi_div_two_sub, ← Real.sin_pi_sub]
            congr 1
            ring_nf
          have b2 := Real.mul_le_sin (x := (Real.pi + θ) / 2) (by linarith) (by linarith)
          rw [b1]
          refine le_trans ?_ b2
          rw [show 2 / Real.pi * ((Real.pi + θ) / 2) = (Real.pi + θ) / Real.pi by field_simp,
            le_div_iff₀ hpi]
          have e : (2 : ℝ) ^ (-146 : ℤ) = 8 * 2 ^ (-149 : ℤ) := by norm_num
          have hp' : (0 : ℝ) < 2 ^ (-149 : ℤ) := by positivity
          nlinarith
        have a2 : s ≤ -(2 ^ (-1 : ℤ)) := by
          have b1 : s = -Real.sin (-(θ / 2)) := by rw [Real.sin_neg, neg_neg]
          have b2 := Real.mul_le_sin (x := -(θ / 2)) (by linarith) (by linarith)
          have b3 : (1 : ℝ) / 2 ≤ 2 / Real.pi * -(θ / 2) := by
            rw [show 2 / Real.pi * -(θ / 2) = -θ / Real.pi by field_simp, le_div_iff₀ hpi]
            linarith
          have b4 : (2 : ℝ) ^ (-1 : ℤ) = 1 / 2 := by norm_num
          rw [b1, b4]
          linarith
        have a3 := fl32_mono a1
        rw [fl32_pow (by norm_num)] at a3
        have a4 := fl32_mono a2
        rw [fl_neg, fl32_pow (by norm_num)] at a4
        have hp' : (0 : ℝ) < 2 ^ (-149 : ℤ) := by positivity
        have hp1 : (0 : ℝ) < 2 ^ (-1 : ℤ) := by positivity
        have := mul_neg_of_pos_of_neg (hp'.trans_le a3) (by linarith : float32.fl s < 0)
        linarith

theorem stored_unit {q : Quat} {θ t : ℝ} (h : Near (2 ^ (-23 : ℤ)) q θ) (ht : 3 * 2 ^ (-23 : ℤ) ≤ t) :
    |‖toC q‖ - 1| ≤ t := by
  obtain ⟨σ, hσ, hn⟩ := h.toC (by positivity)
  have h1 : ‖(σ : ℂ) * Complex.exp ((θ / 2 : ℝ) * Complex.I)‖ = 1 := by
    rw [norm_mul, Complex.norm_exp_ofReal_mul_I, mul_one]
    rcases hσ with rfl | rfl <;> simp
  have h2 := (abs_norm_sub_norm_le (toC q) (σ * Complex.exp ((θ / 2 : ℝ) * Complex.I))).trans hn
  rw [h1] at h2
  have hp : (0 : ℝ) < 2 ^ (-23 : ℤ) := by positivity
  linarith

theorem flQ_neg (q : Quat) : flQ (-q) = -flQ q := by
  apply Quaternion.ext
  · exact fl_neg float32 _
  · exact fl_neg float32 _
  · exact fl_neg float32 _
  · exact fl_neg float32 _

theorem toEuler32_neg (tol : Tolerance) (q : Quat) : toEuler32 tol (-q) = toEuler32 tol q := by
  unfold toEuler32
  have e1 : (-q).re = -q.re := rfl
  have e2 : (-q).imI = -q.imI := rfl
  have e3 : (-q).imJ = -q.imJ := rfl
  have e4 : (-q).imK = -q.imK := rfl
  simp only [e1, e2, e3, e4, neg_sq, neg_mul_neg]

theorem toEuler32_mem (tol : Tolerance) (q : Quat) :
    -Real.pi < (toEuler32 tol q).1 ∧ (toEuler32 tol q).1 ≤ Real.pi := by
  unfold toEuler32
  simp only
  split_ifs
  · exact Angle.arctan2_mem _ _
  · exact Angle.arctan2_mem _ _

/-- The error of an angle and of its rounding together. -/
theorem close_of_error {a θ : ℝ} (h : |a - θ| ≤ 2.001 * 2 ^ (-24 : ℤ) * |Real.sin θ| + 1.2e-9) :
    |float32.fl a - θ| ≤ 1e-7 + 1e-7 * |θ| := by
  have h1 := fl32_error a
  have h2 : |float32.fl a - θ| ≤ |float32.fl a - a| + |a - θ| := by
    rw [show float32.fl a - θ = (float32.fl a - a) + (a - θ) by ring]; exact abs_add_le _ _
  have h3 : |a| ≤ |a - θ| + |θ| := by
    rw [show a = (a - θ) + θ by ring]
    simpa using abs_add_le (a - θ) θ
  have s1 : |Real.sin θ| ≤ 1 := Real.abs_sin_le_one θ
  have s2 : |Real.sin θ| ≤ |θ| := Real.abs_sin_le_abs
  have n1 : (2 : ℝ) ^ (-24 : ℤ) = 1 / 16777216 := by norm_num
  have n2 : (2 : ℝ) ^ (-150 : ℤ) ≤ 1e-12 := by norm_num
  rw [n1] at h h1
  rcases le_total |θ| 1 with hc | hc <;> norm_num only at * <;> linarith

/-- The number of float32 nearest to π. -/
theorem fl32_pi : float32.fl Real.pi = 13176795 * 2 ^ (-22 : ℤ) := by
  have hF : 1 ≤ float32.digits := by decide
  have hg := Real.pi_gt_d20
  have hl := Real.pi_lt_d20
  have h1 := (fl_nearest float32 hF Real.pi).2 (13176795 * 2 ^ (-22 : ℤ))
    ⟨13176795, -22, by norm_num [float32], by decide, by norm_num⟩
  have h2 : (2 : ℝ) ^ (1 : ℤ) ≤ |float32.fl Real.pi| := by
    have := fl32_mono (show (2 : ℝ) ^ (1 : ℤ) ≤ Real.pi by norm_num at *; linarith)
    rw [fl32_pow (by norm_num)] at this
    exact this.trans (le_abs_self _)
  obtain ⟨n, hn⟩ := number_multiple float32 hF (fl_number float32 _) h2
  rw [show (1 : ℤ) - ((float32.digits : ℤ) - 1) = -22 from rfl] at hn
  rw [hn] at h1 ⊢
  have hup : |(13176795 : ℝ) * 2 ^ (-22 : ℤ) - Real.pi| ≤ 9e-8 := by
    rw [abs_le]; constructor <;> norm_num at * <;> linarith
  have h3 := abs_le.1 (h1.trans hup)
  have e : (2 : ℝ) ^ (-22 : ℤ) = 1 / 4194304 := by norm_num
  rw [e] at h3 ⊢
  have a1 : (13176794 : ℝ) < n := by norm_num at *; linarith
  have a2 : (n : ℝ) < 13176796 := by norm_num at *; linarith
  have a3 : (13176794 : ℤ) < n := by exact_mod_cast a1
  have a4 : n < (13176796 : ℤ) := by exact_mod_cast a2
  have : n = 13176795 := by omega
  rw [this]
  norm_num

end Verif.Rounding
