import Verif.RelaxTime.Props
/-!
# The error of a diffusion constant: C49
-/

namespace Verif.RelaxTime

/-- **C49, the error.**  Whatever the solver is, when it succeeds with variances that are not negative on at least three
samples, the constant times `2 d` is the slope, and the error times `2 d` is twice the standard deviation of the slope. -/
theorem C49_error {signals : Bool} {fit : List (ℝ × ℝ) → Except PyErr Fit} {time : List ℝ} {msd : List (Option ℝ)}
    (hl : time.length = msd.length) (hs : signals = true → none ∉ msd) {d : ℕ} (hd : 0 < d)
    (hthree : 3 ≤ (msd.filter (between 2 50)).length) {f : Fit} (hf : fit (region 2 50 time msd) = .ok f)
    (h0 : 0 ≤ f.var0) (h1 : 0 ≤ f.var1) :
    ∃ x e : ℝ, diffusionConstant signals fit time msd d = .ok ⟨some x, some e⟩ ∧ x * (2 * d) = f.p0 ∧
      0 ≤ e ∧ (e * (2 * d)) ^ 2 = 4 * f.var0 := by
  have hd' : (0 : ℝ) < d := by exact_mod_cast hd
  have hany : ¬ (signals && msd.any Option.isNone) = true := by
    intro h
    rw [Bool.and_eq_true, List.any_eq_true] at h
    obtain ⟨hsig, v, hv, hn⟩ := h
    rw [Option.isNone_iff_eq_none] at hn
    exact hs hsig (hn ▸ hv)
  have s0 : npSqrt f.var0 = .ok (Real.sqrt f.var0) := by simp [npSqrt, not_lt.2 h0]
  have s1 : npSqrt f.var1 = .ok (Real.sqrt f.var1) := by simp [npSqrt, not_lt.2 h1]
  refine ⟨f.p0 / (2 * d), 2 * Real.sqrt f.var0 / (2 * d), ?_, by field_simp, by positivity, ?_⟩
  · unfold diffusionConstant
    rw [if_neg hany, if_neg (by omega), if_neg (by simpa using hl), hf]
    simp only [s0, s1]
  · rw [div_mul_cancel₀ _ (by positivity), mul_pow, Real.sq_sqrt h0]
    norm_num

/-- Three samples, and a fit with slope 1 and variance 1/4. -/
example : ∃ x e : ℝ, diffusionConstant false (fun _ => .ok ⟨1, 2, 1 / 4, 0⟩) [1, 2, 3] [some 3, some 4, some 5] =
    .ok ⟨some x, some e⟩ ∧ x * 4 = 1 ∧ 0 ≤ e ∧ (e * 4) ^ 2 = 1 := by
  have hb : ∀ x : ℝ, 2 < x → x < 50 → between 2 50 (some x) = true := by
    intro x h1 h2
    simp [between, h1, h2]
  obtain ⟨x, e, h, hx, he, hv⟩ := C49_error (signals := false) (fit := fun _ => .ok ⟨1, 2, 1 / 4, 0⟩) (time := [1, 2, 3])
    (msd := [some 3, some 4, some 5]) rfl (by simp) (d := 2) (by norm_num)
    (by
      rw [List.filter_cons_of_pos (hb 3 (by norm_num) (by norm_num)),
        List.filter_cons_of_pos (hb 4 (by norm_num) (by norm_num)),
        List.filter_cons_of_pos (hb 5 (by norm_num) (by norm_num))]
      simp) rfl (by norm_num) le_rfl
  refine ⟨x, e, h, ?_, he, ?_⟩
  · norm_num at hx
    exact hx
  · rw [show (e * (2 * (2 : ℕ)) : ℝ) = e * 4 by norm_num] at hv
    linarith

end Verif.RelaxTime
