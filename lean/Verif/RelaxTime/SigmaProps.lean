import Verif.RelaxTime.EscapeProps
/-!
# The errors given to `exponential_relaxation`: C51
-/

namespace Verif.RelaxTime

theorem seen_length {time : List ℝ} {value : List (Option ℝ)} (h : time.length = value.length) :
    (seen time value).length = value.countP Option.isSome := by
  unfold seen
  induction time generalizing value with
  | nil =>
    obtain rfl := List.length_eq_zero_iff.1 h.symm
    rfl
  | cons t time ih =>
    cases value with
    | nil => simp at h
    | cons v value =>
      have := ih (Nat.succ.inj h)
      cases v with
      | none => simpa using this
      | some x => simpa using this

/-- **C51, the errors.**  With enough samples near 1/e, errors that are not as many as the values that are
not NaN raise an IndexError, be they fewer or more: the NaN are taken out of the values and not out of
the errors. -/
theorem C51_errors (fit : ℝ × ℝ → List (ℝ × ℝ) → Option (List ℝ) → Except PyErr Fit)
    (root : ℝ → ℝ → ℝ → Except PyErr (Option ℝ)) {time : List ℝ} {value : List (Option ℝ)} {w : ℝ}
    (hl : time.length = value.length) (he : EnoughSamples time value w) {s : List ℝ}
    (hs : s.length ≠ value.countP Option.isSome) :
    exponentialRelaxation fit root time value (some s) w = .error .indexError := by
  rw [← seen_length hl] at hs
  unfold seen at hs
  unfold EnoughSamples at he
  unfold exponentialRelaxation
  rw [if_neg (not_not.2 hl)]
  simp only
  rw [if_neg (by exact not_le.2 he), if_pos hs]

/-- Five errors for four samples. -/
example : exponentialRelaxation (fun _ _ _ => .ok ⟨1, 1, 0, 0⟩) (fun _ _ _ => .ok (some 3)) [1, 2, 3, 4]
    (List.replicate 4 (some (1 / Real.exp 1))) (some [1, 1, 1, 1, 1]) = .error .indexError :=
  C51_errors _ _ rfl four_samples (by simp)

/-- **C51, errors for every value.**  One NaN among the values is enough for errors that are as many as the
values to raise an IndexError. -/
theorem C51_errors_nan (fit : ℝ × ℝ → List (ℝ × ℝ) → Option (List ℝ) → Except PyErr Fit)
    (root : ℝ → ℝ → ℝ → Except PyErr (Option ℝ)) {time : List ℝ} {value : List (Option ℝ)} {w : ℝ}
    (hl : time.length = value.length) (he : EnoughSamples time value w) {s : List ℝ}
    (hs : s.length = value.length) (hn : none ∈ value) :
    exponentialRelaxation fit root time value (some s) w = .error .indexError := by
  refine C51_errors fit root hl he ?_
  rw [hs]
  intro h
  simpa using List.countP_eq_length.1 h.symm _ hn

/-- A NaN before four samples at 1/e, and five errors. -/
example : exponentialRelaxation (fun _ _ _ => .ok ⟨1, 1, 0, 0⟩) (fun _ _ _ => .ok (some 3)) [0, 1, 2, 3, 4]
    (none :: List.replicate 4 (some (1 / Real.exp 1))) (some [1, 1, 1, 1, 1]) = .error .indexError :=
  C51_errors_nan _ _ rfl (show EnoughSamples [0, 1, 2, 3, 4] (none :: List.replicate 4 (some (1 / Real.exp 1))) (3 / 10)
    from four_samples) rfl List.mem_cons_self

end Verif.RelaxTime
