import Verif.RelaxTime.StableProps
import Verif.Rounding.WholeProps
/-!
# Lemmas for C141
-/

namespace Verif.Rounding

open Verif.Motion Verif.Dynamics Verif.RelaxTime

/-- The values of a quantity for the keyframe and the `M` frames after it. -/
noncomputable def series (M : ℕ) (f : ℕ → ℝ) : List (Option ℝ) := (List.range (M + 1)).map (fun n => some (f n))

theorem mem_series {M : ℕ} {f : ℕ → ℝ} {x : ℝ} : some x ∈ series M f ↔ ∃ n ≤ M, f n = x := by
  simp [series]

theorem close_series {M : ℕ} {f g : ℕ → ℝ} {ε : ℝ} (h : ∀ n ≤ M, |f n - g n| ≤ ε) :
    RelaxTime.Close ε (series M f) (series M g) := by
  unfold RelaxTime.Close series
  rw [List.forall₂_map_left_iff, List.forall₂_map_right_iff, List.forall₂_same]
  intro n hn
  exact h n (Nat.lt_succ_iff.1 (List.mem_range.1 hn))

theorem threshold_series {signals : Bool} {time : List ℝ} {M : ℕ} {f g : ℕ → ℝ} {c c' : ℝ}
    (h : ∀ n ≤ M, (f n < c ↔ g n < c')) :
    thresholdRelaxation signals time (series M f) c = thresholdRelaxation signals time (series M g) c' := by
  classical
  have e1 : ∀ k : ℕ → ℝ, (series M k).any Option.isNone = false := by
    intro k
    simp [series]
  have e2 : (series M f).map (fun v => if true = true then nanLt v c else nanGt v c) =
      (series M g).map (fun v => if true = true then nanLt v c' else nanGt v c') := by
    unfold series
    rw [List.map_map, List.map_map]
    apply List.map_congr_left
    intro n hn
    have := h n (Nat.lt_succ_iff.1 (List.mem_range.1 hn))
    simp only [Function.comp_apply, if_true, nanLt, this]
  unfold thresholdRelaxation
  rw [e1, e1, e2]

/-- A threshold that is slightly off. -/
theorem threshold_off {signals : Bool} {time : List ℝ} {M : ℕ} {f g : ℕ → ℝ} {c c' ε κ : ℝ}
    (h : ∀ n ≤ M, |f n - g n| ≤ ε) (hc : |c - c'| ≤ κ) (hcl : ClearOf (ε + κ) c' (series M g)) :
    thresholdRelaxation signals time (series M f) c = thresholdRelaxation signals time (series M g) c' := by
  apply threshold_series
  intro n hn
  have h1 := abs_le.1 (h n hn)
  have h2 := abs_le.1 hc
  rcases lt_abs.1 (hcl (g n) (mem_series.2 ⟨n, hn, rfl⟩)) with h3 | h3
  · exact ⟨fun _ => by linarith [h1.1, h1.2, h2.1, h2.2], fun _ => by linarith [h1.1, h1.2, h2.1, h2.2]⟩
  · exact ⟨fun _ => by linarith [h1.1, h1.2, h2.1, h2.2], fun _ => by linarith [h1.1, h1.2, h2.1, h2.2]⟩

/-- The error of an angle or displacement grows with the number of frames. -/
theorem eta_mono {n M : ℕ} (h : n ≤ M) {q : ℝ} (hq : 0 ≤ q) :
    (n : ℝ) * (1 + 2 ^ (-24 : ℤ)) ^ n * q ≤ M * (1 + 2 ^ (-24 : ℤ)) ^ M * q := by
  have h1 : (1 : ℝ) ≤ 1 + 2 ^ (-24 : ℤ) := by norm_num
  have h2 : (n : ℝ) ≤ M := by exact_mod_cast h
  apply mul_le_mul_of_nonneg_right _ hq
  exact mul_le_mul h2 (pow_le_pow_right₀ h1 h) (by positivity) (by positivity)

theorem shorter_mono {d d' : ℝ} (h : d ≤ d') (l : List V3) : shorter d l ≤ shorter d' l := by
  classical
  unfold shorter
  apply div_le_div_of_nonneg_right _ (Nat.cast_nonneg _)
  rw [← List.countP_eq_length_filter, ← List.countP_eq_length_filter]
  have : l.countP (fun v => decide (length3 v < d)) ≤ l.countP (fun v => decide (length3 v < d')) := by
    apply List.countP_mono_left
    intro v _ hv
    simp only [decide_eq_true_eq] at hv ⊢
    exact hv.trans_le h
  exact_mod_cast this

theorem shorter_le_one (d : ℝ) (l : List V3) : 0 ≤ shorter d l ∧ shorter d l ≤ 1 := by
  classical
  unfold shorter
  refine ⟨by positivity, ?_⟩
  apply div_le_one_of_le₀ _ (Nat.cast_nonneg _)
  exact_mod_cast List.length_filter_le _ _

theorem fl64_unit {x : ℝ} (h0 : 0 ≤ x) (h1 : x ≤ 1) : |float64.fl x - x| ≤ 2 ^ (-52 : ℤ) := by
  have h := fl_rel float64 x
  rw [show -((float64.digits : ℕ) : ℤ) = -53 from rfl, abs_of_nonneg h0] at h
  have t : (2 : ℝ) ^ (float64.emin - 1) ≤ 2 ^ (-53 : ℤ) := two_zpow_le (by decide)
  have e : (2 : ℝ) ^ (-52 : ℤ) = 2 ^ (-53 : ℤ) + 2 ^ (-53 : ℤ) := by norm_num
  have p : (0 : ℝ) < 2 ^ (-53 : ℤ) := by positivity
  rw [e]
  nlinarith
end Verif.Rounding
