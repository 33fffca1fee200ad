import Verif.RelaxTime.UnitsLemmas
import Verif.RelaxTime.Props
/-!
# C136: change of the units of time and length
-/

namespace Verif.RelaxTime

/-- **C136**, times: with times in a unit `τ` times smaller, all relaxation times and their errors (of everything but
`msd` and `msr`) are `τ` times larger; exceptions and NaN are the same. -/
theorem C136_time (signals : Bool) (fit : List (ℝ × ℝ) → Except PyErr Fit) {τ : ℝ} (time : List ℝ)
    (value : List (Option ℝ)) {name : String} (h1 : name ≠ "msd") (h2 : name ≠ "msr") :
    computeRelaxationValue signals fit (time.map (τ * ·)) value name =
      (computeRelaxationValue signals fit time value name).map (Result.rescaled τ) := by
  have ht (thr : ℝ) (d : Bool) : thresholdRelaxation signals (time.map (τ * ·)) value thr d =
      (thresholdRelaxation signals time value thr d).map (Result.rescaled τ) := by
    unfold thresholdRelaxation
    split
    · rfl
    · cases argmaxBool (value.map (fun v => if d then nanLt v thr else nanGt v thr)) with
      | error e => rfl
      | ok i =>
        simp only [pyAt_map]
        cases pyAt time i with
        | error e => rfl
        | ok t =>
          cases pyAt time ((i : ℤ) - 1) with
          | error e => rfl
          | ok t' => simp [Except.map, Result.rescaled, mul_sub]
  have hm : maxTimeRelaxation (time.map (τ * ·)) value =
      (maxTimeRelaxation time value).map (Result.rescaled τ) := by
    unfold maxTimeRelaxation
    simp only [List.length_map]
    split
    · rfl
    · cases nanargmax value with
      | error e => rfl
      | ok i =>
        simp only [pyAt_map, bind, Except.bind, pure, Except.pure]
        split_ifs
        all_goals
          cases h1 : pyAt time i <;> cases h2 : pyAt time ((i : ℤ) - 1) <;> cases h3 : pyAt time ((i : ℤ) + 1) <;>
            simp [Except.map, Result.rescaled, mul_sub] <;> ring
  unfold computeRelaxationValue
  simp only [List.length_map, if_neg h1, if_neg h2]
  split
  · rfl
  · split
    · exact ht _ _
    · split
      · exact hm
      · exact ht _ _

example : "alpha" ≠ "msd" ∧ "alpha" ≠ "msr" := by decide

/-- **C136**, times: the diffusion constants are `τ` times smaller, for a solver that finds the line of smallest
squared error. -/
theorem C136_diffusion_time {signals : Bool} {fit : List (ℝ × ℝ) → Except PyErr Fit} (hfit : LeastSquares fit)
    {τ : ℝ} (hτ : 0 < τ) {time : List ℝ} {value : List (Option ℝ)} (h2 : TwoTimes time value) {dim : ℕ}
    {x y : ℝ} {e e' : Option ℝ} (h : diffusionConstant signals fit time value dim = .ok ⟨some x, e⟩)
    (h' : diffusionConstant signals fit (time.map (τ * ·)) value dim = .ok ⟨some y, e'⟩) : y = 1 / τ * x := by
  obtain ⟨t₁, x₁, t₂, x₂, m1, m2, a1, a2, b1, b2, hne⟩ := h2
  obtain ⟨f, hf, rfl⟩ := diffusion_some h
  obtain ⟨f', hf', rfl⟩ := diffusion_some h'
  rw [region_time] at hf'
  rw [slope_rescaled hfit hτ one_pos hf hf' (mem_region.2 ⟨m1, a1, a2⟩) (mem_region.2 ⟨m2, b1, b2⟩) hne]
  ring

/-- **C136, the property as stated**, for lengths: with lengths in another unit, the values of `msd` are `μ` times
larger, and so is the diffusion constant. -/
def LengthUnits : Prop :=
  ∀ (signals : Bool) (fit : List (ℝ × ℝ) → Except PyErr Fit), LeastSquares fit → ∀ (μ : ℝ), 0 < μ →
    ∀ (time : List ℝ) (value : List (Option ℝ)) (x : ℝ) (e : Option ℝ),
    TwoTimes time value → diffusionConstant signals fit time value = .ok ⟨some x, e⟩ →
    ∀ r, diffusionConstant signals fit time (value.map (Option.map (μ * ·))) = .ok r → r.mean = some (μ * x)

/-- **C136**, what holds for lengths: the diffusion constant follows when the values between 2 and 50 are the same
ones in both units.  Full statement (false, see `C136_length_refuted`): `LengthUnits`. -/
theorem C136_length_partial {signals : Bool} {fit : List (ℝ × ℝ) → Except PyErr Fit} (hfit : LeastSquares fit)
    {μ : ℝ} (hμ : 0 < μ) {time : List ℝ} {value : List (Option ℝ)} (h2 : TwoTimes time value)
    (hsame : SameRegion μ value) {dim : ℕ}
    {x y : ℝ} {e e' : Option ℝ} (h : diffusionConstant signals fit time value dim = .ok ⟨some x, e⟩)
    (h' : diffusionConstant signals fit time (value.map (Option.map (μ * ·))) dim = .ok ⟨some y, e'⟩) : y = μ * x := by
  obtain ⟨t₁, x₁, t₂, x₂, m1, m2, a1, a2, b1, b2, hne⟩ := h2
  obtain ⟨f, hf, rfl⟩ := diffusion_some h
  obtain ⟨f', hf', rfl⟩ := diffusion_some h'
  rw [region_value hsame] at hf'
  rw [slope_rescaled hfit one_pos hμ hf hf' (mem_region.2 ⟨m1, a1, a2⟩) (mem_region.2 ⟨m2, b1, b2⟩) hne]
  ring

/-- Three samples on a line, with values between 2 and 50 also when doubled. -/
theorem line_samples : TwoTimes [1, 2, 3] [some 3, some 4, some 5] ∧ SameRegion 2 [some 3, some 4, some 5] ∧
    region 2 50 [1, 2, 3] [some 3, some 4, some 5] = [(1, 3), (2, 4), (3, 5)] ∧
    (([some 3, some 4, some 5] : List (Option ℝ)).filter (between 2 50)).length = 3 := by
  have b3 : between 2 50 (some 3) = true := by simp [between]; norm_num
  have b4 : between 2 50 (some 4) = true := by simp [between]; norm_num
  have b5 : between 2 50 (some 5) = true := by simp [between]; norm_num
  refine ⟨⟨1, 3, 2, 4, by simp, by simp, by norm_num, by norm_num, by norm_num, by norm_num, by norm_num⟩, ?_, ?_, ?_⟩
  · intro x hx
    simp only [List.mem_cons, Option.some.injEq, List.not_mem_nil, or_false] at hx
    rcases hx with rfl | rfl | rfl <;> norm_num
  · simp [region, b3, b4, b5]
  · simp [b3, b4, b5]

/-- The diffusion constant of the three samples, with a solver for points on a line. -/
theorem line_constant : ∃ fit, LeastSquares fit ∧ ∀ (c : ℝ) (time : List ℝ) (value : List (Option ℝ)),
    time.length = value.length → 3 ≤ (value.filter (between 2 50)).length →
    (∀ p ∈ region 2 50 time value, c * p.1 + 2 * c = p.2) →
    ∃ x, diffusionConstant false fit time value = .ok ⟨some x, some 0⟩ := by
  obtain ⟨fit, hfit, hok⟩ := exists_leastSquares
  refine ⟨fit, hfit, fun c time value hl h3 h => ?_⟩
  obtain ⟨f, hf, v0, v1⟩ := hok _ c (2 * c) h
  refine ⟨f.p0 / (2 * (2 : ℕ)), ?_⟩
  unfold diffusionConstant
  rw [Bool.false_and, if_neg (by simp), if_neg (by omega), if_neg (by simpa using hl), hf]
  simp [npSqrt, v0, v1]

/-- The hypotheses of `C136_length_partial` are met by the three samples and twice their values. -/
example : ∃ fit x y e e', LeastSquares fit ∧ TwoTimes [1, 2, 3] [some 3, some 4, some 5] ∧
    SameRegion 2 [some 3, some 4, some 5] ∧
    diffusionConstant false fit [1, 2, 3] [some 3, some 4, some 5] = .ok ⟨some x, e⟩ ∧
    diffusionConstant false fit [1, 2, 3] ([some 3, some 4, some 5].map (Option.map (2 * ·))) = .ok ⟨some y, e'⟩ := by
  obtain ⟨l1, l2, l3, l4⟩ := line_samples
  obtain ⟨fit, hfit, h⟩ := line_constant
  obtain ⟨x, hx⟩ := h 1 [1, 2, 3] [some 3, some 4, some 5] rfl (by rw [l4]) (by
    rw [l3]
    intro p hp
    simp only [List.mem_cons, List.not_mem_nil, or_false] at hp
    rcases hp with rfl | rfl | rfl <;> norm_num)
  obtain ⟨y, hy⟩ := h 2 [1, 2, 3] ([some 3, some 4, some 5].map (Option.map (2 * ·))) rfl
    (by rw [filter_value l2, l4]) (by
    rw [region_value l2, l3]
    intro p hp
    simp only [List.map_cons, List.map_nil, List.mem_cons, List.not_mem_nil, or_false] at hp
    rcases hp with rfl | rfl | rfl <;> norm_num)
  exact ⟨fit, x, y, _, _, hfit, l1, l2, hx, hy⟩

/-- The hypotheses of `C136_diffusion_time` are met by the three samples, with times halved. -/
example : ∃ fit x y e e', LeastSquares fit ∧ TwoTimes [1, 2, 3] [some 3, some 4, some 5] ∧
    diffusionConstant false fit [1, 2, 3] [some 3, some 4, some 5] = .ok ⟨some x, e⟩ ∧
    diffusionConstant false fit ([1, 2, 3].map (1 / 2 * ·)) [some 3, some 4, some 5] = .ok ⟨some y, e'⟩ := by
  obtain ⟨l1, l2, l3, l4⟩ := line_samples
  obtain ⟨fit, hfit, hok⟩ := exists_leastSquares
  have key (τ : ℝ) (hτ : τ ≠ 0) : ∃ x e, diffusionConstant false fit ([1, 2, 3].map (τ * ·)) [some 3, some 4, some 5] =
      .ok ⟨some x, e⟩ := by
    obtain ⟨f, hf, v0, v1⟩ := hok (region 2 50 ([1, 2, 3].map (τ * ·)) [some 3, some 4, some 5]) (1 / τ) 2 (by
      rw [region_time, l3]
      intro p hp
      simp only [List.map_cons, List.map_nil, List.mem_cons, List.not_mem_nil, or_false] at hp
      rcases hp with rfl | rfl | rfl <;> field_simp <;> norm_num)
    refine ⟨f.p0 / (2 * (2 : ℕ)), some 0, ?_⟩
    unfold diffusionConstant
    rw [Bool.false_and, if_neg (by simp), if_neg (by omega), if_neg (by simp), hf]
    simp [npSqrt, v0, v1]
  obtain ⟨x, e, hx⟩ := key 1 one_ne_zero
  obtain ⟨y, e', hy⟩ := key (1 / 2) (by norm_num)
  refine ⟨fit, x, y, e, e', hfit, l1, ?_, hy⟩
  simpa using hx

/-- **C136** is false for lengths: the msd 3, 4, 5 has a diffusion constant, but a tenth of it has none. -/
theorem C136_length_refuted : ¬ LengthUnits := by
  intro h
  obtain ⟨l1, l2, l3, l4⟩ := line_samples
  obtain ⟨fit, hfit, hok⟩ := line_constant
  obtain ⟨x, hx⟩ := hok 1 [1, 2, 3] [some 3, some 4, some 5] rfl (by rw [l4]) (by
    rw [l3]
    intro p hp
    simp only [List.mem_cons, List.not_mem_nil, or_false] at hp
    rcases hp with rfl | rfl | rfl <;> norm_num)
  have hn := C49_too_few false fit [1, 2, 3] ([some 3, some 4, some 5].map (Option.map ((1 / 10 : ℝ) * ·))) 2 (by
    have b3 : between 2 50 (some (1 / 10 * 3)) = false := by simp [between]; norm_num
    have b4 : between 2 50 (some (1 / 10 * 4)) = false := by simp [between]; norm_num
    have b5 : between 2 50 (some (1 / 10 * 5)) = false := by simp [between]; norm_num
    simp only [List.map_cons, List.map_nil, Option.map_some, List.filter_cons, b3, b4, b5]
    simp)
  have := h false fit hfit (1 / 10) (by norm_num) _ _ _ _ l1 hx _ hn
  cases this

end Verif.RelaxTime
