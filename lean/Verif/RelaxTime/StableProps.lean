import Mathlib.Analysis.Complex.ExponentialBounds
import Verif.RelaxTime.StableLemmas
/-!
# C140: small errors in the values
-/

namespace Verif.RelaxTime

/-- **C140, the property as stated**: there is some size of errors that changes the relaxation time of a quantity by a
bounded amount. -/
def TimesStable (name : String) : Prop :=
  ∃ ε K : ℝ, 0 < ε ∧ ∀ (signals : Bool) (fit : List (ℝ × ℝ) → Except PyErr Fit) (time : List ℝ)
    (value value' : List (Option ℝ)) (r r' : Result), Close ε value value' →
    computeRelaxationValue signals fit time value name = .ok r →
    computeRelaxationValue signals fit time value' name = .ok r' →
    ∀ t t', r.mean = some t → r'.mean = some t' → |t - t'| ≤ K

/-- **C140**, times of decay: errors of at most `ε` change neither the relaxation time nor its error, when no value is
that near to 1/e.  Full statement (false, see `C140_refuted`): `TimesStable`. -/
theorem C140_decay_partial (signals : Bool) (fit : List (ℝ × ℝ) → Except PyErr Fit) {ε : ℝ} (time : List ℝ)
    {value value' : List (Option ℝ)} (h : Close ε value value') (hc : ClearOf ε (1 / Real.exp 1) value)
    {name : String} (h1 : name ∉ ["msd", "msr", "struct_msd", "alpha", "gamma"]) :
    computeRelaxationValue signals fit time value' name = computeRelaxationValue signals fit time value name := by
  simp only [List.mem_cons, List.not_mem_nil, or_false, not_or] at h1
  unfold computeRelaxationValue
  rw [close_length h, threshold_close h hc]
  simp [h1]

/-- A decaying function with errors of 1/100 that stays away from 1/e. -/
example (fit : List (ℝ × ℝ) → Except PyErr Fit) :
    computeRelaxationValue true fit [0, 1, 2] [some 1, some (7 / 10), some (1 / 10)] "com_struct" =
      computeRelaxationValue true fit [0, 1, 2] [some 1, some (71 / 100), some (9 / 100)] "com_struct" := by
  have h1 : (1 : ℝ) / Real.exp 1 < 1 / 2 := by
    have : (2 : ℝ) < Real.exp 1 := by have := Real.exp_one_gt_d9; linarith
    exact one_div_lt_one_div_of_lt (by norm_num) this
  have h2 : (1 : ℝ) / 3 < 1 / Real.exp 1 := by
    have : Real.exp 1 < (3 : ℝ) := by have := Real.exp_one_lt_d9; linarith
    exact one_div_lt_one_div_of_lt (Real.exp_pos 1) this
  apply C140_decay_partial (ε := 1 / 100)
  · refine .cons ?_ (.cons ?_ (.cons ?_ .nil)) <;> unfold Near <;> norm_num
  · intro x hx
    simp only [List.mem_cons, List.not_mem_nil, or_false, Option.some.injEq] at hx
    rcases hx with rfl | rfl | rfl
    · exact lt_abs.2 (Or.inl (by linarith))
    · exact lt_abs.2 (Or.inl (by linarith))
    · exact lt_abs.2 (Or.inr (by linarith))
  · decide

/-- **C140**, `struct_msd`: the same when no value is near to 0.16. -/
theorem C140_struct_partial (signals : Bool) (fit : List (ℝ × ℝ) → Except PyErr Fit) {ε : ℝ} (time : List ℝ)
    {value value' : List (Option ℝ)} (h : Close ε value value') (hc : ClearOf ε (16 / 100) value) :
    computeRelaxationValue signals fit time value' "struct_msd" =
      computeRelaxationValue signals fit time value "struct_msd" := by
  unfold computeRelaxationValue
  rw [close_length h, threshold_close h hc]
  simp

/-- A mean squared displacement of the particles with errors of 1/100 that stays away from 0.16. -/
example (fit : List (ℝ × ℝ) → Except PyErr Fit) :
    computeRelaxationValue true fit [0, 1, 2] [some 0, some (1 / 10), some (31 / 100)] "struct_msd" =
      computeRelaxationValue true fit [0, 1, 2] [some 0, some (11 / 100), some (30 / 100)] "struct_msd" := by
  apply C140_struct_partial (ε := 1 / 100)
  · refine .cons ?_ (.cons ?_ (.cons ?_ .nil)) <;> unfold Near <;> norm_num
  · intro x hx
    simp at hx
    rcases hx with rfl | rfl | rfl <;> norm_num [abs_of_neg, abs_of_pos, lt_abs]

/-- **C140**, times of the maximum: the same when the largest value is more than `2 ε` larger than all others. -/
theorem C140_max_partial (signals : Bool) (fit : List (ℝ × ℝ) → Except PyErr Fit) {ε : ℝ} (hε : 0 ≤ ε)
    (time : List ℝ) {value value' : List (Option ℝ)} (h : Close ε value value') (hc : LoneMax ε value)
    {name : String} (h1 : name = "alpha" ∨ name = "gamma") :
    computeRelaxationValue signals fit time value' name = computeRelaxationValue signals fit time value name := by
  unfold computeRelaxationValue
  rw [close_length h, maxTime_close hε h hc]
  rcases h1 with rfl | rfl <;> simp

/-- A series of decays and one of ratios, each with errors of at most 1/100: no value is that near to 1/e, and one
ratio is more than 2/100 larger than the others. -/
example : Close (1 / 100) [some 1, some (1 / 2), none, some (1 / 4)] [some 1, some (51 / 100), none, some (24 / 100)] ∧
    ClearOf (1 / 100) (1 / Real.exp 1) [some 1, some (1 / 2), none, some (1 / 4)] ∧
    LoneMax (1 / 100) [some 0, some 1, none, some (1 / 2)] := by
  have h1 := Real.exp_one_gt_d9
  have h2 := Real.exp_one_lt_d9
  have h3 : 1 / Real.exp 1 < 37 / 100 := by
    rw [div_lt_div_iff₀ (Real.exp_pos 1) (by norm_num)]
    linarith
  have h4 : 36 / 100 < 1 / Real.exp 1 := by
    rw [div_lt_div_iff₀ (by norm_num) (Real.exp_pos 1)]
    linarith
  refine ⟨?_, ?_, 1, 1, rfl, ?_⟩
  · refine .cons ?_ (.cons ?_ (.cons trivial (.cons ?_ .nil))) <;> unfold Near <;> norm_num
  · intro x hx
    simp only [List.mem_cons, Option.some.injEq, List.not_mem_nil, or_false, reduceCtorEq, false_or] at hx
    rcases hx with rfl | rfl | rfl <;> rw [lt_abs]
    · left; linarith
    · left; linarith
    · right; linarith
  · intro j y hj hy
    rcases j with _ | _ | _ | _ | j
    · simp at hy; rw [← hy]; norm_num
    · exact absurd rfl hj
    · simp at hy
    · simp at hy; rw [← hy]; norm_num
    · simp at hy

/-- **C140**, the largest value itself, whatever the values: it differs by at most `ε`, and it is NaN for both series or
for neither. -/
theorem C140_max_value {ε : ℝ} {time : List ℝ} {value value' : List (Option ℝ)} (h : Close ε value value')
    {r r' : Result} (hr : maxValueRelaxation time value = .ok r) (hr' : maxValueRelaxation time value' = .ok r') :
    Near ε r.mean r'.mean := by
  rcases maxValue_mean hr with ⟨h1, h2⟩ | ⟨i, x, h1, h2⟩ <;> rcases maxValue_mean hr' with ⟨h3, h4⟩ | ⟨j, y, h3, h4⟩
  · rw [h2, h4]; trivial
  · obtain ⟨z, hz, _⟩ := close_some (close_symm h) h3.1
    exact absurd (List.mem_of_getElem? hz) (h1 z)
  · obtain ⟨z, hz, _⟩ := close_some h h1.1
    exact absurd (List.mem_of_getElem? hz) (h3 z)
  · rw [h2, h4]
    exact max_near h h1 h3

example : maxValueRelaxation [0, 1] [some 1, some 3] = .ok ⟨some 3, some 2⟩ := by
  have : FirstMax [some 1, some 3] 1 3 := by
    refine ⟨rfl, ?_, ?_⟩
    · intro y hy
      simp at hy
      rcases hy with rfl | rfl <;> norm_num
    · intro j hj y hy
      obtain rfl : j = 0 := by omega
      simp at hy
      rw [← hy]; norm_num
  unfold maxValueRelaxation
  rw [nanargmax_firstMax this]
  simp [pyAt, bind, Except.bind, pure, Except.pure, nanSub]
  norm_num

/-- **C140**, diffusion constants: when no value is as near as `ε` to 2 or to 50, the diffusion constants differ by at
most `ε` times the square root of the number of points, over the square root of the spread of their times and twice
the number of dimensions. -/
theorem C140_diffusion_partial {signals : Bool} {fit : List (ℝ × ℝ) → Except PyErr Fit} (hfit : LeastSquares fit)
    {ε : ℝ} (hε : 0 ≤ ε) {time : List ℝ} {value value' : List (Option ℝ)} (h : Close ε value value')
    (h2 : ClearOf ε 2 value) (h50 : ClearOf ε 50 value) {dim : ℕ} {x y : ℝ} {e e' : Option ℝ}
    (hx : diffusionConstant signals fit time value dim = .ok ⟨some x, e⟩)
    (hy : diffusionConstant signals fit time value' dim = .ok ⟨some y, e'⟩) :
    |x - y| * (2 * dim) * √(spread (linearTimes time value)) ≤ ε * √(linearTimes time value).length := by
  obtain ⟨f, hf, rfl⟩ := diffusion_some hx
  obtain ⟨f', hf', rfl⟩ := diffusion_some hy
  have key := slope_close hfit (region_close h h2 h50 time) hf hf'
  have hl : (region 2 50 time value).length = (linearTimes time value).length := by
    rw [← region_times, List.length_map]
  rw [region_times, hl] at key
  rcases Nat.eq_zero_or_pos dim with rfl | hd
  · simp only [Nat.cast_zero, mul_zero, zero_mul]
    positivity
  have hd' : (0 : ℝ) < dim := by exact_mod_cast hd
  have e1 : |f.p0 / (2 * dim) - f'.p0 / (2 * dim)| * (2 * dim) = |f.p0 - f'.p0| := by
    rw [← sub_div, abs_div, abs_of_pos (by positivity : (0 : ℝ) < 2 * dim)]
    field_simp
  rw [e1]
  have e2 : |f.p0 - f'.p0| * √(spread (linearTimes time value)) =
      √((f.p0 - f'.p0) ^ 2 * spread (linearTimes time value)) := by
    rw [Real.sqrt_mul (sq_nonneg _), Real.sqrt_sq_eq_abs]
  have e3 : ε * √(linearTimes time value).length = √((linearTimes time value).length * ε ^ 2) := by
    rw [Real.sqrt_mul (Nat.cast_nonneg _), Real.sqrt_sq hε, mul_comm]
  rw [e2, e3]
  exact Real.sqrt_le_sqrt key

/-- Four values on a line, of which three are between 2 and 50 and none within 1/10 of either; the times are spread
by 2. -/
example : ClearOf (1 / 10) 2 [some 1, some 3, some 5, some 7] ∧ ClearOf (1 / 10) 50 [some 1, some 3, some 5, some 7] ∧
    linearTimes [0, 1, 2, 3] [some 1, some 3, some 5, some 7] = [1, 2, 3] ∧ spread [1, 2, 3] = 2 := by
  refine ⟨?_, ?_, ?_, ?_⟩
  · intro x hx
    simp at hx
    rcases hx with rfl | rfl | rfl | rfl <;> norm_num [abs_of_neg, abs_of_pos, lt_abs]
  · intro x hx
    simp at hx
    rcases hx with rfl | rfl | rfl | rfl <;> norm_num [abs_of_neg, abs_of_pos, lt_abs]
  · unfold linearTimes
    norm_num [List.zip, List.zipWith, List.filter_cons]
  · norm_num [spread]

theorem threshold_at {i : ℕ} {thr t t' : ℝ} {time : List ℝ} {value : List (Option ℝ)}
    (h : FirstBeyond thr true value i) (ht : time[i]? = some t) (ht' : pyAt time ((i : ℤ) - 1) = .ok t') :
    thresholdRelaxation false time value thr true = .ok ⟨some t, some (t - t')⟩ := by
  rw [threshold_eq (by simp), argmax_first h]
  simp only [pyAt_nat ht, ht']

/-- **C140, refuted**: a value at 1/e, or two equal largest values: errors however small move the time by any amount. -/
theorem C140_refuted : ¬ TimesStable "rot1" ∧ ¬ TimesStable "alpha" := by
  constructor
  · rintro ⟨ε, K, hε, h⟩
    have he : 0 < 1 / Real.exp 1 := by positivity
    have h1 : 1 / Real.exp 1 < 1 := by
      rw [div_lt_one (Real.exp_pos 1)]
      linarith [Real.exp_one_gt_d9]
    have hr : ∀ (time : List ℝ) (value : List (Option ℝ)), time.length = value.length →
        computeRelaxationValue false (fun _ => .error .typeError) time value "rot1" =
          thresholdRelaxation false time value := by
      intro time value hl
      unfold computeRelaxationValue
      simp [hl]
    set c := 1 / Real.exp 1 with hc
    have hcl : Close ε [some 1, some c, some 0] [some 1, some (c - ε), some 0] := by
      refine .cons ?_ (.cons ?_ (.cons ?_ .nil)) <;> unfold Near
      · simpa using hε.le
      · simp [abs_of_pos hε]
      · simpa using hε.le
    have hb : ∀ x : ℝ, Beyond c true (some x) ↔ x < c := fun x => by simp [Beyond]
    have f1 : FirstBeyond c true [some 1, some c, some 0] 2 := by
      refine ⟨⟨some 0, rfl, (hb 0).2 he⟩, ?_⟩
      intro j hj v hv
      rcases j with _ | _ | j
      · simp at hv; rw [← hv, hb]; linarith
      · simp at hv; rw [← hv, hb]; linarith
      · omega
    have f2 : FirstBeyond c true [some 1, some (c - ε), some 0] 1 := by
      refine ⟨⟨some (c - ε), rfl, (hb _).2 (by linarith)⟩, ?_⟩
      intro j hj v hv
      obtain rfl : j = 0 := by omega
      simp at hv; rw [← hv, hb]; linarith
    have e1 := threshold_at (time := [0, 1, |K| + 2]) (t := |K| + 2) (t' := 1) f1 rfl (by simp [pyAt])
    have e2 := threshold_at (time := [0, 1, |K| + 2]) (t := 1) (t' := 0) f2 rfl (by simp [pyAt])
    have := h false (fun _ => .error .typeError) [0, 1, |K| + 2] _ _ _ _ hcl
      ((hr _ _ rfl).trans e1) ((hr _ _ rfl).trans e2) _ _ rfl rfl
    rw [abs_of_nonneg (by linarith [abs_nonneg K])] at this
    linarith [le_abs_self K]
  · rintro ⟨ε, K, hε, h⟩
    have hcl : Close ε [some ε, some 0] [some 0, some ε] := by
      refine .cons ?_ (.cons ?_ .nil) <;> unfold Near <;> simp [abs_of_pos hε]
    have f1 : FirstMax [some ε, some 0] 0 ε := by
      refine ⟨rfl, ?_, fun j hj => by omega⟩
      intro y hy
      simp at hy
      rcases hy with rfl | rfl <;> linarith
    have f2 : FirstMax [some 0, some ε] 1 ε := by
      refine ⟨rfl, ?_, ?_⟩
      · intro y hy
        simp at hy
        rcases hy with rfl | rfl <;> linarith
      · intro j hj y hy
        obtain rfl : j = 0 := by omega
        simp at hy
        rw [← hy]; exact hε
    have := h false (fun _ => .error .typeError) [0, |K| + 1] _ _ ⟨some 0, some (|K| + 1)⟩ ⟨some (|K| + 1), some (|K| + 1)⟩
      hcl (by
        unfold computeRelaxationValue maxTimeRelaxation
        rw [nanargmax_firstMax f1]
        simp [pyAt, bind, Except.bind, pure, Except.pure])
      (by
        unfold computeRelaxationValue maxTimeRelaxation
        rw [nanargmax_firstMax f2]
        simp [pyAt, bind, Except.bind, pure, Except.pure]) _ _ rfl rfl
    rw [abs_le] at this
    linarith [le_abs_self K, this.1]

end Verif.RelaxTime
