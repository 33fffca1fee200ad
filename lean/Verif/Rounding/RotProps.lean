import Mathlib.Analysis.Real.Pi.Bounds
import Verif.Rounding.TurnLemmas
/-!
# C118: rotations in single precision
-/

namespace Verif.Rounding

open Quaternion Verif.Motion

/-- **C118, any axis.**  For quaternions of exactly unit length the clip does nothing, and outside of the
tolerance for gimbal lock, or in gimbal lock proper, the angles are those of the other areas. -/
theorem C118_exact (tol : Tolerance) (h0 : 0 ≤ tol.gimbal) (q : Quat) (hq : normSq q = 1)
    (hg : Real.cos (toEuler q).2.1 = 0 ∨ tol.gimbal < |Real.cos (toEuler q).2.1|) :
    toEuler32 tol q = toEuler q := by
  have hbeta : (toEuler q).2.1 = Real.arcsin (-(2 * (q.imI * q.imK - q.re * q.imJ))) := by
    unfold toEuler; simp only; split <;> rfl
  rw [hbeta] at hg
  rw [Quaternion.normSq_def'] at hq
  have clip (x : ℝ) (h1 : -1 ≤ x) (h2 : x ≤ 1) : clip1 x = x := by
    unfold clip1; rw [min_eq_right h2, max_eq_right h1]
  have s1 := sq_nonneg q.re
  have s2 := sq_nonneg q.imI
  have s3 := sq_nonneg q.imJ
  have s4 := sq_nonneg q.imK
  have p1 := sq_nonneg (q.imI - q.imJ)
  have p2 := sq_nonneg (q.imI + q.imJ)
  have p3 := sq_nonneg (q.re - q.imK)
  have p4 := sq_nonneg (q.re + q.imK)
  have p5 := sq_nonneg (q.imI - q.imK)
  have p6 := sq_nonneg (q.imI + q.imK)
  have p7 := sq_nonneg (q.re - q.imJ)
  have p8 := sq_nonneg (q.re + q.imJ)
  have p9 := sq_nonneg (q.imJ - q.imK)
  have p10 := sq_nonneg (q.imJ + q.imK)
  have p11 := sq_nonneg (q.re - q.imI)
  have p12 := sq_nonneg (q.re + q.imI)
  unfold toEuler32 toEuler
  simp only
  rw [clip (q.re ^ 2 + q.imI ^ 2 - q.imJ ^ 2 - q.imK ^ 2) (by linarith) (by linarith),
    clip (2 * (q.imI * q.imJ - q.re * q.imK)) (by nlinarith) (by nlinarith),
    clip (2 * (q.imI * q.imJ + q.re * q.imK)) (by nlinarith) (by nlinarith),
    clip (q.re ^ 2 - q.imI ^ 2 + q.imJ ^ 2 - q.imK ^ 2) (by linarith) (by linarith),
    clip (2 * (q.imI * q.imK - q.re * q.imJ)) (by nlinarith) (by nlinarith),
    clip (2 * (q.imJ * q.imK + q.re * q.imI)) (by nlinarith) (by nlinarith),
    clip (q.re ^ 2 - q.imI ^ 2 - q.imJ ^ 2 + q.imK ^ 2) (by linarith) (by linarith)]
  rcases hg with hg | hg
  · rw [hg, abs_zero, if_pos h0, if_pos rfl]
  · rw [if_neg (by linarith), if_neg (fun h => by rw [h, abs_zero] at hg; linarith)]

/-- Half a turn about (0, 3/5, 4/5), which is not in gimbal lock. -/
example : let q : Quat := ⟨0, 0, 3 / 5, 4 / 5⟩
    normSq q = 1 ∧ (1e-3 : ℝ) < |Real.cos (toEuler q).2.1| := by
  intro q
  constructor
  · rw [Quaternion.normSq_def']; norm_num [q]
  · have : (toEuler q).2.1 = 0 := by
      unfold toEuler
      simp only [q]
      split <;> simp
    rw [this, Real.cos_zero]; norm_num

/-- **C118, any orientations close enough.**  `θ i m` is the true angle of molecule `m` about z, `o i m` a
quaternion of it of either sign, off by at most `ε ≤ 1/1000`.  rowan takes all of them as units if its
tolerance is `3ε` or more.  When no molecule turns by `π - 10ε` or more between frames, and none is ever
further than `B` from its first angle, the angle accumulated in float32 is right up to `n` times `10ε` and
a rounding error of `B`; there is no rotation about other axes. -/
theorem C118_accumulated (tol : Tolerance) (hgim : tol.gimbal < 1) {N : ℕ} (θ : ℕ → Fin N → ℝ)
    (o : ℕ → Fin N → Quat) (n : ℕ) {ε B : ℝ} (hε : 0 ≤ ε) (hε' : ε ≤ 1 / 1000) (hunit : 3 * ε ≤ tol.unit)
    (ho : ∀ i ≤ n, ∀ m, Near ε (o i m) (θ i m))
    (hstep : ∀ i < n, ∀ m, |θ (i + 1) m - θ i m| + 10 * ε < Real.pi)
    (hB0 : 0 ≤ B) (hB : ∀ i ≤ n, ∀ m, |θ i m - θ 0 m| ≤ B) :
    ∃ x : Fin N → ℝ,
      turn32 tol (List.ofFn (o 0)) ((List.range n).map (fun i => List.ofFn (o (i + 1)))) =
        .ok (List.ofFn (fun m => (x m, 0, 0))) ∧
      ∀ m, |x m - (θ n m - θ 0 m)| ≤
        n * (1 + 2 ^ (-24 : ℤ)) ^ n * (10 * ε + (2 ^ (-24 : ℤ) * B + 2 ^ (-150 : ℤ))) := by
  have hu : (0 : ℝ) ≤ 2 ^ (-24 : ℤ) := (zpow_pos (by norm_num) _).le
  have hu' : (0 : ℝ) ≤ 2 ^ (-150 : ℤ) := (zpow_pos (by norm_num) _).le
  have hβ : (0 : ℝ) ≤ 2 ^ (-24 : ℤ) * B + 2 ^ (-150 : ℤ) := by
    have := mul_nonneg hu hB0; linarith
  have hclosed := turn32_closed tol o n (fun i hi m => by
    rw [planar_norm (planar_div (ho (i + 1) (by omega) m).planar (ho i (by omega) m).planar).1]
    exact ((quotient_near hε hε' (ho i (by omega) m) (ho (i + 1) (by omega) m)).2.1).trans hunit)
  have heuler (i : ℕ) (hi : i < n) (m : Fin N) := euler_near (tol := tol) hgim hε hε' (ho i (by omega) m)
    (ho (i + 1) (by omega) m) (hstep i hi m)
  have hflat : ∀ i ≤ n, ∀ m, (rot32 tol o i m).2 = 0 := by
    intro i
    induction i with
    | zero => intro _ _; rfl
    | succ i ih =>
      intro hi m
      obtain ⟨x, hx, -⟩ := heuler i (by omega) m
      have h0 := ih (by omega) m
      have h1 : (rot32 tol o i m).2.1 = 0 := by rw [h0]; rfl
      have h2 : (rot32 tol o i m).2.2 = 0 := by rw [h0]; rfl
      rw [rot32, hx]
      simp [fl3, fl_zero, h1, h2]
  refine ⟨fun m => (rot32 tol o n m).1, ?_, fun m => ?_⟩
  · rw [hclosed]
    congr 2
    funext m
    exact Prod.ext rfl (hflat n le_rfl m)
  · refine sum_error (fun i => |(rot32 tol o i m).1 - (θ i m - θ 0 m)|) hu (by linarith) hβ ?_ (n := n) ?_
      n le_rfl
    · simp [rot32]
    · intro i hi
      obtain ⟨x, hx, hxe⟩ := heuler i hi m
      have e1 : (rot32 tol o (i + 1) m).1 = float32.fl ((rot32 tol o i m).1 - -x) := by
        rw [rot32, hx, sub_neg_eq_add]; rfl
      have e2 : θ (i + 1) m - θ 0 m = (θ i m - θ 0 m) + (θ (i + 1) m - θ i m) := by ring
      rw [e1, e2]
      refine step_error le_rfl ?_ ?_
      · rw [show -x + (θ (i + 1) m - θ i m) = -(x - (θ (i + 1) m - θ i m)) by ring, abs_neg]
        exact hxe
      · rw [← e2]; exact hB (i + 1) (by omega) m

/-- **C118.**  Orientations as stored in gsd files and made by `z2quaternion`: quaternions of the true
angles, of either sign, rounded to float32.  With the tolerances of rowan (or any others as large) they are
accepted, and the angles come out right up to about `1.2 · 10⁻⁶` and a rounding error per frame. -/
theorem C118_stored (tol : Tolerance) (hgim : tol.gimbal < 1) (hunit : 3 * 2 ^ (-23 : ℤ) ≤ tol.unit) {N : ℕ}
    (θ σ : ℕ → Fin N → ℝ) (n : ℕ) {B : ℝ} (hσ : ∀ i ≤ n, ∀ m, σ i m = 1 ∨ σ i m = -1)
    (hstep : ∀ i < n, ∀ m, |θ (i + 1) m - θ i m| + 10 * 2 ^ (-23 : ℤ) < Real.pi)
    (hB0 : 0 ≤ B) (hB : ∀ i ≤ n, ∀ m, |θ i m - θ 0 m| ≤ B) :
    ∃ x : Fin N → ℝ,
      turn32 tol (List.ofFn (fun m => flQ (σ 0 m • zRot (θ 0 m))))
          ((List.range n).map (fun i => List.ofFn (fun m => flQ (σ (i + 1) m • zRot (θ (i + 1) m))))) =
        .ok (List.ofFn (fun m => (x m, 0, 0))) ∧
      ∀ m, |x m - (θ n m - θ 0 m)| ≤
        n * (1 + 2 ^ (-24 : ℤ)) ^ n * (10 * 2 ^ (-23 : ℤ) + (2 ^ (-24 : ℤ) * B + 2 ^ (-150 : ℤ))) :=
  C118_accumulated tol hgim θ (fun i m => flQ (σ i m • zRot (θ i m))) n (by positivity)
    (by norm_num) hunit (fun i hi m => flQ_near _ (hσ i hi m)) hstep hB0 hB

/-- The tolerances of rowan. -/
example : (3 : ℝ) * 2 ^ (-23 : ℤ) ≤ (⟨1e-5 + 1e-8, 1e-3⟩ : Tolerance).unit ∧
    (⟨1e-5 + 1e-8, 1e-3⟩ : Tolerance).gimbal < 1 := by
  constructor <;> norm_num

/-- A molecule that turns by 3 radians in each of ten frames, its quaternion of alternating sign. -/
example : let θ : ℕ → Fin 1 → ℝ := fun i _ => 3 * i
    (∀ i < 10, ∀ m, |θ (i + 1) m - θ i m| + 10 * 2 ^ (-23 : ℤ) < Real.pi) ∧
    (∀ i ≤ 10, ∀ m, |θ i m - θ 0 m| ≤ 30) ∧
    ∀ i ≤ 10, ∀ _ : Fin 1, ((-1 : ℝ) ^ i = 1 ∨ (-1 : ℝ) ^ i = -1) := by
  refine ⟨fun i _ m => ?_, fun i hi m => ?_, fun i _ _ => neg_one_pow_eq_or ℝ i⟩
  · rw [show (3 : ℝ) * ((i + 1 : ℕ) : ℝ) - 3 * i = 3 by push_cast; ring, abs_of_pos (by norm_num)]
    have := Real.pi_gt_d2
    norm_num at this ⊢
    linarith
  · have h : (i : ℝ) ≤ 10 := by exact_mod_cast hi
    have h0 : (0 : ℝ) ≤ i := Nat.cast_nonneg i
    rw [abs_of_nonneg (by push_cast; linarith)]
    push_cast
    linarith

/-- **C118, in numbers.**  For up to a million frames and total rotations of up to 1000 radians, the error
is below 70 · n · 10⁻⁶ radians. -/
theorem C118_numbers (tol : Tolerance) (hgim : tol.gimbal < 1) (hunit : 3 * 2 ^ (-23 : ℤ) ≤ tol.unit) {N : ℕ}
    (θ σ : ℕ → Fin N → ℝ) (n : ℕ) (hn : n ≤ 1000000) (hσ : ∀ i ≤ n, ∀ m, σ i m = 1 ∨ σ i m = -1)
    (hstep : ∀ i < n, ∀ m, |θ (i + 1) m - θ i m| ≤ 3.14)
    (hB : ∀ i ≤ n, ∀ m, |θ i m - θ 0 m| ≤ 1000) :
    ∃ x : Fin N → ℝ,
      turn32 tol (List.ofFn (fun m => flQ (σ 0 m • zRot (θ 0 m))))
          ((List.range n).map (fun i => List.ofFn (fun m => flQ (σ (i + 1) m • zRot (θ (i + 1) m))))) =
        .ok (List.ofFn (fun m => (x m, 0, 0))) ∧
      ∀ m, |x m - (θ n m - θ 0 m)| ≤ 70 * n * 1e-6 := by
  obtain ⟨x, hx, he⟩ := C118_stored tol hgim hunit θ σ n hσ (fun i hi m => by
    have h1 := hstep i hi m
    have h2 := Real.pi_gt_d6
    have h3 : (10 : ℝ) * 2 ^ (-23 : ℤ) < 0.0015 := by norm_num
    exact (add_lt_add_of_le_of_lt h1 h3).trans (lt_of_le_of_lt (by norm_num) h2)) (by norm_num : (0 : ℝ) ≤ 1000) hB
  refine ⟨x, hx, fun m => (he m).trans ?_⟩
  have hpow : ((1 : ℝ) + 2 ^ (-24 : ℤ)) ^ n ≤ 1.1 := by
    have h1 : ((1 : ℝ) + 2 ^ (-24 : ℤ)) ^ n ≤ Real.exp (2 ^ (-24 : ℤ)) ^ n := by
      apply pow_le_pow_left₀ (by positivity)
      have := Real.add_one_le_exp ((2 : ℝ) ^ (-24 : ℤ))
      linarith
    have h2 : Real.exp (2 ^ (-24 : ℤ)) ^ n = Real.exp (n * 2 ^ (-24 : ℤ)) := (Real.exp_nat_mul _ _).symm
    have hn' : (n : ℝ) ≤ 1000000 := by exact_mod_cast hn
    have h3 : (n : ℝ) * 2 ^ (-24 : ℤ) ≤ 0.06 := by
      have : (2 : ℝ) ^ (-24 : ℤ) ≤ 0.00000006 := by norm_num
      have h0 : (0 : ℝ) ≤ n := Nat.cast_nonneg n
      nlinarith
    have h4 := Real.exp_le_exp.2 h3
    have h5 : Real.exp 0.06 ≤ 1.1 := by
      have h6 := Real.exp_bound_div_one_sub_of_interval (x := 0.06) (by norm_num) (by norm_num)
      norm_num at h6 ⊢
      linarith
    exact (h1.trans h2.le).trans (h4.trans h5)
  have h0 : (0 : ℝ) ≤ n := Nat.cast_nonneg n
  have h1 : (10 : ℝ) * 2 ^ (-23 : ℤ) + (2 ^ (-24 : ℤ) * 1000 + 2 ^ (-150 : ℤ)) ≤ 63e-6 := by norm_num
  have h2 : (n : ℝ) * (1 + 2 ^ (-24 : ℤ)) ^ n ≤ n * 1.1 := mul_le_mul_of_nonneg_left hpow h0
  calc _ ≤ (n : ℝ) * 1.1 * 63e-6 := mul_le_mul h2 h1 (by positivity) (by positivity)
    _ ≤ 70 * n * 1e-6 := by nlinarith

end Verif.Rounding
