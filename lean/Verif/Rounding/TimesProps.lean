import Mathlib.Tactic.IntervalCases
import Verif.Rounding.TimesLemmas
/-!
# C141: relaxation times from values in single precision
-/

namespace Verif.Rounding

open Verif.Motion Verif.Dynamics Verif.RelaxTime

variable {sum : List ℝ → ℝ}

/-- **C141, rotations**: the values of `rot1`, `rot2` and `msr` for a keyframe and the `M` frames after it, computed
from float32 orientations in float32, lead to the same relaxation times as those of the true angles, when none of these
is as near to 1/e as the error of C133 (`c` is the float64 `1 / np.e`).  Diffusion constants differ by that error
times the square root of the number of points over that of the spread of the times, over twice the dimensions. -/
theorem C141_rotations (hs : IsSum sum) {δ : ℝ} {cos32 : ℝ → ℝ} (hc : IsCos δ cos32) (hδ : δ ≤ 1 / 16)
    (tol : Tolerance) (hgim : tol.gimbal < 1) (hunit : 3 * 2 ^ (-23 : ℤ) ≤ tol.unit) {N : ℕ} (hN0 : 0 < N)
    (hN : N ≤ 2 ^ 20) (θ σ : ℕ → Fin N → ℝ) (M : ℕ) {B L η : ℝ} (hσ : ∀ i ≤ M, ∀ m, σ i m = 1 ∨ σ i m = -1)
    (hstep : ∀ i < M, ∀ m, |θ (i + 1) m - θ i m| + 10 * 2 ^ (-23 : ℤ) < Real.pi)
    (hB0 : 0 ≤ B) (hB : ∀ i ≤ M, ∀ m, |θ i m - θ 0 m| ≤ B)
    (hη : η = M * (1 + 2 ^ (-24 : ℤ)) ^ M * (10 * 2 ^ (-23 : ℤ) + (2 ^ (-24 : ℤ) * B + 2 ^ (-150 : ℤ))))
    (hη' : η ≤ 1 / 32) (hL : 1 ≤ L) (hL' : L ≤ 2 ^ 15) (hLB : B + 4 * η ≤ L) :
    ∃ rs : ℕ → List V3,
      (∀ n ≤ M, turn32 tol (List.ofFn (fun m => flQ (σ 0 m • zRot (θ 0 m))))
          ((List.range n).map (fun i => List.ofFn (fun m => flQ (σ (i + 1) m • zRot (θ (i + 1) m))))) = .ok (rs n)) ∧
      (∀ signals time c, |c - 1 / Real.exp 1| ≤ 2 ^ (-52 : ℤ) →
        ClearOf (δ + η + (3 * L + N) / 2 ^ 22 + 2 ^ (-52 : ℤ)) (1 / Real.exp 1)
          (series M (fun n => average (List.finRange N) (fun m => Real.cos (θ n m - θ 0 m)))) →
        thresholdRelaxation signals time (series M (fun n => rot1F sum cos32 (rs n))) c =
          thresholdRelaxation signals time
            (series M (fun n => average (List.finRange N) (fun m => Real.cos (θ n m - θ 0 m))))) ∧
      (∀ signals time c, |c - 1 / Real.exp 1| ≤ 2 ^ (-52 : ℤ) →
        ClearOf (5 * (δ + η) + (15 * L + N + 4) / 2 ^ 22 + 2 ^ (-52 : ℤ)) (1 / Real.exp 1)
          (series M (fun n => average (List.finRange N) (fun m => Real.cos (2 * (θ n m - θ 0 m))))) →
        thresholdRelaxation signals time (series M (fun n => rot2F sum cos32 (rs n))) c =
          thresholdRelaxation signals time
            (series M (fun n => average (List.finRange N) (fun m => Real.cos (2 * (θ n m - θ 0 m)))))) ∧
      (∀ signals fit time dim x y e e', LeastSquares fit →
        ClearOf (2 * η * L + L ^ 2 * (N + 2) / 2 ^ 22) 2
          (series M (fun n => average (List.finRange N) (fun m => (θ n m - θ 0 m) ^ 2))) →
        ClearOf (2 * η * L + L ^ 2 * (N + 2) / 2 ^ 22) 50
          (series M (fun n => average (List.finRange N) (fun m => (θ n m - θ 0 m) ^ 2))) →
        diffusionConstant signals fit time
          (series M (fun n => average (List.finRange N) (fun m => (θ n m - θ 0 m) ^ 2))) dim = .ok ⟨some x, e⟩ →
        diffusionConstant signals fit time (series M (fun n => msd32 sum (rs n))) dim = .ok ⟨some y, e'⟩ →
        |x - y| * (2 * dim) * √(spread (linearTimes time
          (series M (fun n => average (List.finRange N) (fun m => (θ n m - θ 0 m) ^ 2))))) ≤
          (2 * η * L + L ^ 2 * (N + 2) / 2 ^ 22) * √(linearTimes time
          (series M (fun n => average (List.finRange N) (fun m => (θ n m - θ 0 m) ^ 2)))).length) := by
  have hq : (0 : ℝ) ≤ 10 * 2 ^ (-23 : ℤ) + (2 ^ (-24 : ℤ) * B + 2 ^ (-150 : ℤ)) := by positivity
  have hη0 : 0 ≤ η := by rw [hη]; positivity
  have key : ∀ n, ∃ rs, n ≤ M → turn32 tol (List.ofFn (fun m => flQ (σ 0 m • zRot (θ 0 m))))
          ((List.range n).map (fun i => List.ofFn (fun m => flQ (σ (i + 1) m • zRot (θ (i + 1) m))))) = .ok rs ∧
      |msd32 sum rs - average (List.finRange N) (fun m => (θ n m - θ 0 m) ^ 2)| ≤
        2 * η * L + L ^ 2 * (N + 2) / 2 ^ 22 ∧
      |rot1F sum cos32 rs - average (List.finRange N) (fun m => Real.cos (θ n m - θ 0 m))| ≤
        δ + η + (3 * L + N) / 2 ^ 22 ∧
      |rot2F sum cos32 rs - average (List.finRange N) (fun m => Real.cos (2 * (θ n m - θ 0 m)))| ≤
        5 * (δ + η) + (15 * L + N + 4) / 2 ^ 22 := by
    intro n
    by_cases hn : n ≤ M
    · have hmono := eta_mono hn hq
      rw [← hη] at hmono
      obtain ⟨rs, h1, -, h3, h4, h5⟩ := C133_rotations hs hc hδ tol hgim hunit hN0 hN θ σ n
        (B := B) (L := L) (fun i hi => hσ i (hi.trans hn)) (fun i hi => hstep i (hi.trans_le hn)) hB0
        (fun i hi => hB i (hi.trans hn)) rfl (hmono.trans hη') hL hL' (by linarith)
      generalize (n : ℝ) * (1 + 2 ^ (-24 : ℤ)) ^ n * (10 * 2 ^ (-23 : ℤ) + (2 ^ (-24 : ℤ) * B + 2 ^ (-150 : ℤ))) = ζ at *
      refine ⟨rs, fun _ => ⟨h1, h3.trans ?_, h4.trans (by linarith), h5.trans (by linarith)⟩⟩
      have : 2 * ζ * L ≤ 2 * η * L := by
        apply mul_le_mul_of_nonneg_right _ (by linarith)
        linarith
      linarith
    · exact ⟨[], fun h => absurd h hn⟩
  choose rs hrs using key
  refine ⟨rs, fun n hn => (hrs n hn).1, ?_, ?_, ?_⟩
  · intro signals time c hcc hcl
    exact threshold_off (fun n hn => (hrs n hn).2.2.1) hcc hcl
  · intro signals time c hcc hcl
    exact threshold_off (fun n hn => (hrs n hn).2.2.2) hcc hcl
  · intro signals fit time dim x y e e' hfit h2 h50 hx hy
    refine C140_diffusion_partial hfit (by positivity) (close_series (fun n hn => ?_)) h2 h50 hx hy
    rw [abs_sub_comm]
    exact (hrs n hn).2.1

/-- A molecule that turns by 2 radians per frame: with ten frames the hypotheses hold with `B = 20` and `L = 21`, and
with two frames no cosine is near to 1/e; with five frames three of the squared angles are between 2 and 50, and none
is near to 2 or 50. -/
example : let η : ℝ := (10 : ℕ) * (1 + 2 ^ (-24 : ℤ)) ^ 10 *
      (10 * 2 ^ (-23 : ℤ) + (2 ^ (-24 : ℤ) * 20 + 2 ^ (-150 : ℤ)))
    (η ≤ 1 / 32 ∧ 20 + 4 * η ≤ 21 ∧ (∀ i < 10, |(2 * ((i + 1 : ℕ) : ℝ)) - 2 * (i : ℕ)| + 10 * 2 ^ (-23 : ℤ) < Real.pi)) ∧
    ClearOf (1 / 2 ^ 23 + η + (3 * 21 + (1 : ℕ)) / 2 ^ 22 + 2 ^ (-52 : ℤ)) (1 / Real.exp 1)
      (series 1 (fun n => average (List.finRange 1) (fun _ => Real.cos (2 * (n : ℝ) - 2 * (0 : ℕ))))) ∧
    (∀ b : ℝ, b = 2 ∨ b = 50 → ClearOf (1 / 10) b
      (series 4 (fun n => average (List.finRange 1) (fun _ => (2 * (n : ℝ) - 2 * (0 : ℕ)) ^ 2)))) := by
  intro η
  have t : (2 : ℝ) ^ (-150 : ℤ) ≤ 1 / 1000000 := by
    have : (2 : ℝ) ^ (-150 : ℤ) ≤ 2 ^ (-20 : ℤ) := two_zpow_le (by norm_num)
    exact this.trans (by norm_num)
  have h : η ≤ 1 / 1000 := by
    have e : (2 : ℝ) ^ (-24 : ℤ) = 1 / 16777216 := by norm_num
    have e' : (2 : ℝ) ^ (-23 : ℤ) = 1 / 8388608 := by norm_num
    simp only [η]
    rw [e, e']
    generalize (2 : ℝ) ^ (-150 : ℤ) = s at t
    push_cast
    norm_num
    linarith
  clear_value η
  have e1 := Real.exp_one_gt_d9
  have e2 := Real.exp_one_lt_d9
  have h3 : 1 / Real.exp 1 < 37 / 100 := by
    rw [div_lt_div_iff₀ (Real.exp_pos 1) (by norm_num)]
    linarith
  have h4 : 36 / 100 < 1 / Real.exp 1 := by
    rw [div_lt_div_iff₀ (by norm_num) (Real.exp_pos 1)]
    linarith
  have p1 := Real.pi_gt_three
  have p2 := Real.pi_lt_d2
  have a1 (x : ℝ) : average (List.finRange 1) (fun _ => x) = x := by simp [average]
  refine ⟨⟨by linarith, by linarith, ?_⟩, ?_, ?_⟩
  · intro i _
    push_cast
    rw [show (2 : ℝ) * (i + 1) - 2 * i = 2 by ring, abs_of_pos (by norm_num)]
    have : (10 : ℝ) * 2 ^ (-23 : ℤ) < 1 := by norm_num
    linarith
  · intro x hx
    obtain ⟨n, hn, rfl⟩ := mem_series.1 hx
    have t2 : (2 : ℝ) ^ (-52 : ℤ) ≤ 1 / 1000 := by norm_num
    have t3 : (1 : ℝ) / 2 ^ 23 + η + (3 * 21 + (1 : ℕ)) / 2 ^ 22 + 2 ^ (-52 : ℤ) ≤ 1 / 100 := by
      generalize (2 : ℝ) ^ (-52 : ℤ) = q at t2 ⊢
      norm_num at *
      linarith
    refine lt_of_le_of_lt t3 ?_
    rw [a1, lt_abs]
    interval_cases n
    · left
      simp
      norm_num at h3
      linarith
    · right
      clear t t2 t3 hx
      have : Real.cos (2 * ((1 : ℕ) : ℝ) - 2 * ((0 : ℕ) : ℝ)) < 0 := by
        apply Real.cos_neg_of_pi_div_two_lt_of_lt <;> push_cast <;> linarith
      generalize Real.cos (2 * ((1 : ℕ) : ℝ) - 2 * ((0 : ℕ) : ℝ)) = z at this ⊢
      generalize 1 / Real.exp 1 = w at h4 ⊢
      clear e1 e2 h3
      linarith
  · rintro b hb x hx
    obtain ⟨n, hn, rfl⟩ := mem_series.1 hx
    rw [a1, lt_abs]
    interval_cases n <;> rcases hb with rfl | rfl <;> norm_num

/-- **C141, displacements**: the same for `msd`, and for `com_struct` when at no frame the share of molecules within
the distance, up to the error of C132, is as near to 1/e as the rounding of float64. -/
theorem C141_displacements (hs : IsSum sum) (c : Cell) (wrap : V3 → V3) {N : ℕ} (hN0 : 0 < N) (hN : N ≤ 2 ^ 20)
    (u s : ℕ → Fin N → V3) (M : ℕ) {ε B L η : ℝ}
    (hwrap : ∀ i < M, ∀ m, Within ε (wrap (fl3 (s i m - s (i + 1) m)) + c.flat (u (i + 1) m - u i m)))
    (hB : ∀ i ≤ M, ∀ m, Within B (c.flat (u i m - u 0 m))) (hε : 0 ≤ ε) (hB0 : 0 ≤ B)
    (hη : η = M * (1 + 2 ^ (-24 : ℤ)) ^ M * (ε + (2 ^ (-24 : ℤ) * B + 2 ^ (-150 : ℤ))))
    (hL : 1 ≤ L) (hLB : 2 * B + 8 * η ≤ L) :
    ∃ ds : ℕ → List V3,
      (∀ n ≤ M, track32 wrap (List.ofFn (s 0)) ((List.range n).map (fun i => List.ofFn (s (i + 1)))) = .ok (ds n)) ∧
      (∀ signals time thr dist, |thr - 1 / Real.exp 1| ≤ 2 ^ (-52 : ℤ) → 1 / 2 ^ 40 ≤ dist →
        (∀ n ≤ M,
          shorter (dist * (1 + 1 / 2 ^ 20) + 2 * η) (List.ofFn (fun m => c.flat (u n m - u 0 m))) + 2 ^ (-51 : ℤ) <
            1 / Real.exp 1 ∨
          1 / Real.exp 1 + 2 ^ (-51 : ℤ) <
            shorter (dist * (1 - 1 / 2 ^ 20) - 2 * η) (List.ofFn (fun m => c.flat (u n m - u 0 m)))) →
        thresholdRelaxation signals time (series M (fun n => comStruct32 sum dist (ds n))) thr =
          thresholdRelaxation signals time
            (series M (fun n => shorter dist (List.ofFn (fun m => c.flat (u n m - u 0 m)))))) ∧
      (∀ signals fit time dim x y e e', LeastSquares fit →
        ClearOf (4 * η * L + L ^ 2 * (N + 2) / 2 ^ 22) 2
          (series M (fun n => average (List.finRange N) (fun m => lenSq (c.flat (u n m - u 0 m))))) →
        ClearOf (4 * η * L + L ^ 2 * (N + 2) / 2 ^ 22) 50
          (series M (fun n => average (List.finRange N) (fun m => lenSq (c.flat (u n m - u 0 m))))) →
        diffusionConstant signals fit time
          (series M (fun n => average (List.finRange N) (fun m => lenSq (c.flat (u n m - u 0 m))))) dim =
            .ok ⟨some x, e⟩ →
        diffusionConstant signals fit time (series M (fun n => msd32 sum (ds n))) dim = .ok ⟨some y, e'⟩ →
        |x - y| * (2 * dim) * √(spread (linearTimes time
          (series M (fun n => average (List.finRange N) (fun m => lenSq (c.flat (u n m - u 0 m))))))) ≤
          (4 * η * L + L ^ 2 * (N + 2) / 2 ^ 22) * √(linearTimes time
          (series M (fun n => average (List.finRange N) (fun m => lenSq (c.flat (u n m - u 0 m)))))).length) := by
  have hq : (0 : ℝ) ≤ ε + (2 ^ (-24 : ℤ) * B + 2 ^ (-150 : ℤ)) := by positivity
  have hη0 : 0 ≤ η := by rw [hη]; positivity
  have key : ∀ n, ∃ ds, n ≤ M →
      track32 wrap (List.ofFn (s 0)) ((List.range n).map (fun i => List.ofFn (s (i + 1)))) = .ok ds ∧
      |msd32 sum ds - average (List.finRange N) (fun m => lenSq (c.flat (u n m - u 0 m)))| ≤
        4 * η * L + L ^ 2 * (N + 2) / 2 ^ 22 ∧
      ∀ dist, 1 / 2 ^ 40 ≤ dist →
        float64.fl (shorter (dist * (1 - 1 / 2 ^ 20) - 2 * η) (List.ofFn (fun m => c.flat (u n m - u 0 m)))) ≤
          comStruct32 sum dist ds ∧
        comStruct32 sum dist ds ≤
          float64.fl (shorter (dist * (1 + 1 / 2 ^ 20) + 2 * η) (List.ofFn (fun m => c.flat (u n m - u 0 m)))) := by
    intro n
    by_cases hn : n ≤ M
    · have hmono := eta_mono hn hq
      rw [← hη] at hmono
      obtain ⟨ds, h1, -, h3, h4⟩ := C132_displacements hs c wrap hN0 hN u s n (B := B) (L := L)
        (fun i hi => hwrap i (hi.trans_le hn)) (fun i hi => hB i (hi.trans hn)) hε hB0 rfl hL (by linarith)
      generalize (n : ℝ) * (1 + 2 ^ (-24 : ℤ)) ^ n * (ε + (2 ^ (-24 : ℤ) * B + 2 ^ (-150 : ℤ))) = ζ at *
      refine ⟨ds, fun _ => ⟨h1, h3.trans ?_, fun dist hd => ?_⟩⟩
      · have : 4 * ζ * L ≤ 4 * η * L := by
          apply mul_le_mul_of_nonneg_right _ (by linarith)
          linarith
        linarith
      · obtain ⟨h5, h6⟩ := h4 dist hd
        exact ⟨(fl64_mono (shorter_mono (by linarith) _)).trans h5, h6.trans (fl64_mono (shorter_mono (by linarith) _))⟩
    · exact ⟨[], fun h => absurd h hn⟩
  choose ds hds using key
  refine ⟨ds, fun n hn => (hds n hn).1, ?_, ?_⟩
  · intro signals time thr dist hthr hdist hcl
    apply threshold_series
    intro n hn
    obtain ⟨h1, h2⟩ := (hds n hn).2.2 dist hdist
    have hd0 : 0 < dist := lt_of_lt_of_le (by positivity) hdist
    have hthr := abs_le.1 hthr
    have e51 : (2 : ℝ) ^ (-51 : ℤ) = 2 ^ (-52 : ℤ) + 2 ^ (-52 : ℤ) := by norm_num
    have p52 : (0 : ℝ) < 2 ^ (-52 : ℤ) := by positivity
    have hd1 : dist ≤ dist * (1 + 1 / 2 ^ 20) + 2 * η := by nlinarith
    have hd2 : dist * (1 - 1 / 2 ^ 20) - 2 * η ≤ dist := by nlinarith
    set l := List.ofFn (fun m => c.flat (u n m - u 0 m))
    have m1 := shorter_mono hd1 l
    have m2 := shorter_mono hd2 l
    rcases hcl n hn with h3 | h3
    · have h4 := abs_le.1 (fl64_unit (shorter_le_one (dist * (1 + 1 / 2 ^ 20) + 2 * η) l).1
        (shorter_le_one (dist * (1 + 1 / 2 ^ 20) + 2 * η) l).2)
      rw [e51] at h3
      exact ⟨fun _ => by linarith, fun _ => by linarith [hthr.1, h4.2]⟩
    · have h4 := abs_le.1 (fl64_unit (shorter_le_one (dist * (1 - 1 / 2 ^ 20) - 2 * η) l).1
        (shorter_le_one (dist * (1 - 1 / 2 ^ 20) - 2 * η) l).2)
      rw [e51] at h3
      exact ⟨fun _ => by linarith [hthr.2, h4.1], fun _ => by linarith⟩
  · intro signals fit time dim x y e e' hfit h2 h50 hx hy
    refine C140_diffusion_partial hfit (by positivity) (close_series (fun n hn => ?_)) h2 h50 hx hy
    rw [abs_sub_comm]
    exact (hds n hn).2.1

/-- The shares of three molecules: with the distance 1 and errors of 1/100, two of three molecules are within it in any
case before they move by 2, and none after. -/
example :
    1 / Real.exp 1 + 2 ^ (-51 : ℤ) < shorter (1 * (1 - 1 / 2 ^ 20) - 2 * (1 / 100)) [(0, 0, 0), (1 / 2, 0, 0), (2, 0, 0)] ∧
    shorter (1 * (1 + 1 / 2 ^ 20) + 2 * (1 / 100)) [(2, 0, 0), (5 / 2, 0, 0), (4, 0, 0)] + 2 ^ (-51 : ℤ) <
      1 / Real.exp 1 := by
  have e1 := Real.exp_one_gt_d9
  have e2 := Real.exp_one_lt_d9
  have h3 : 1 / Real.exp 1 < 37 / 100 := by
    rw [div_lt_div_iff₀ (Real.exp_pos 1) (by norm_num)]
    linarith
  have h4 : 36 / 100 < 1 / Real.exp 1 := by
    rw [div_lt_div_iff₀ (by norm_num) (Real.exp_pos 1)]
    linarith
  have t : (2 : ℝ) ^ (-51 : ℤ) ≤ 1 / 1000 := by norm_num
  have l (x : ℝ) (hx : 0 ≤ x) : length3 (x, 0, 0) = x := by
    unfold length3
    simp [Real.sqrt_sq hx]
  have s1 : shorter (1 * (1 - 1 / 2 ^ 20) - 2 * (1 / 100)) [(0, 0, 0), (1 / 2, 0, 0), (2, 0, 0)] = 2 / 3 := by
    unfold shorter
    simp only [List.filter_cons, List.filter_nil, l 0 le_rfl, l (1 / 2) (by norm_num), l 2 (by norm_num)]
    norm_num
  have s2 : shorter (1 * (1 + 1 / 2 ^ 20) + 2 * (1 / 100)) [(2, 0, 0), (5 / 2, 0, 0), (4, 0, 0)] = 0 := by
    unfold shorter
    simp only [List.filter_cons, List.filter_nil, l 2 (by norm_num), l (5 / 2) (by norm_num), l 4 (by norm_num)]
    norm_num
  rw [s1, s2]
  constructor <;> linarith

end Verif.Rounding
