import Verif.RelaxTime.Props
/-!
# Exactly when a FloatingPointError leaves `exponential_relaxation`: C80
-/

namespace Verif.RelaxTime

/-- The samples that are not NaN, in order. -/
def seen (time : List ℝ) (value : List (Option ℝ)) : List (ℝ × ℝ) :=
  (time.zip value).filterMap (fun p => p.2.map (fun x => (p.1, x)))

/-- `z` is the time of the first of the samples nearest to 1/e. -/
def FirstNearest (l : List (ℝ × ℝ)) (z : ℝ) : Prop :=
  ∃ a v b, l = a ++ (z, v) :: b ∧
    (∀ q ∈ a, |v - 1 / Real.exp 1| < |q.2 - 1 / Real.exp 1|) ∧
    ∀ q ∈ b, |v - 1 / Real.exp 1| ≤ |q.2 - 1 / Real.exp 1|

open Classical in
/-- Where the fit starts: amplitude 1, and the rate for which the decay reaches 1/e at `z`. -/
noncomputable def startAt (z : ℝ) : ℝ × ℝ := if z = 0 then (1, 0) else (1, 1 / z)

theorem argmin_first {l : List (ℝ × ℝ)} {z : ℝ} (h : FirstNearest l z) :
    ((l[argmin (l.map (fun p => |p.2 - 1 / Real.exp 1|))]?).map Prod.fst).getD 0 = z := by
  classical
  obtain ⟨a, v, b, rfl, ha, hb⟩ := h
  have hidx : argmin ((a ++ (z, v) :: b).map (fun p => |p.2 - 1 / Real.exp 1|)) = a.length := by
    unfold argmin
    rw [List.findIdx_eq (by simp)]
    constructor
    · simp only [decide_eq_true_eq]
      intro y hy
      rw [List.getElem_map, List.getElem_append_right le_rfl]
      simp only [Nat.sub_self, List.getElem_cons_zero]
      obtain ⟨q, hq, rfl⟩ := List.mem_map.1 hy
      rcases List.mem_append.1 hq with hq | hq
      · exact (ha q hq).le
      · rcases List.mem_cons.1 hq with rfl | hq
        · exact le_rfl
        · exact hb q hq
    · intro j hj
      simp only [decide_eq_false_iff_not, not_forall, not_le]
      rw [List.getElem_map, List.getElem_append_left hj]
      exact ⟨|v - 1 / Real.exp 1|, List.mem_map.2 ⟨(z, v), by simp, rfl⟩,
        ha _ (List.getElem_mem hj)⟩
  rw [hidx]
  simp

/-- **C80, exactly.**  A FloatingPointError leaves `exponential_relaxation` (called without `sigma`)
if and only if the lengths agree, there are more than three samples near 1/e, the fit succeeds with
variances that are not negative, and the search for the root of the fitted decay itself raises it,
started at the time of the sample nearest to 1/e. -/
theorem C80_exactly
    (fit : ℝ × ℝ → List (ℝ × ℝ) → Option (List ℝ) → Except PyErr Fit)
    (root : ℝ → ℝ → ℝ → Except PyErr (Option ℝ)) (time : List ℝ) (value : List (Option ℝ)) (w z : ℝ)
    (hz : FirstNearest (seen time value) z) :
    exponentialRelaxation fit root time value none w = .error .floatingPointError ↔
      time.length = value.length ∧ EnoughSamples time value w ∧
      ∃ f, fit (startAt z) ((seen time value).filter (fun p =>
          between (1 / Real.exp 1 - w / 2) (1 / Real.exp 1 + w / 2) (some p.2))) none = .ok f ∧
        0 ≤ f.var0 ∧ 0 ≤ f.var1 ∧ root f.p0 f.p1 z = .error .floatingPointError := by
  have hz' := argmin_first hz
  unfold seen at hz' ⊢
  unfold exponentialRelaxation EnoughSamples startAt
  by_cases hl : time.length = value.length
  swap
  · rw [if_pos hl]; simp [hl]
  rw [if_neg (not_not.2 hl)]
  simp only [hz']
  split
  · rename_i hlen
    constructor
    · intro h; cases h
    · rintro ⟨_, h, _⟩; omega
  rename_i hlen
  have hlen' := not_le.1 hlen
  cases hf : fit (open Classical in if z = 0 then (1, 0) else (1, 1 / z)) _ none with
  | error e => cases e <;> simp
  | ok f =>
    simp only [Except.ok.injEq, exists_eq_left', hl, hlen', true_and]
    by_cases h0 : f.var0 < 0
    · have e0 : npSqrt f.var0 = .error .floatingPointError := by simp [npSqrt, h0]
      simp [e0, not_le.2 h0]
    by_cases h1 : f.var1 < 0
    · have e1 : npSqrt f.var1 = .error .floatingPointError := by simp [npSqrt, h1]
      simp [e1, not_le.2 h1]
    have e0 : npSqrt f.var0 = .ok (Real.sqrt f.var0) := by simp [npSqrt, h0]
    have e1 : npSqrt f.var1 = .ok (Real.sqrt f.var1) := by simp [npSqrt, h1]
    simp only [e0, e1, not_lt.1 h0, not_lt.1 h1, true_and]
    cases hr : root f.p0 f.p1 z with
    | error e => cases e <;> simp
    | ok val =>
      simp only [reduceCtorEq, iff_false]
      intro h
      split at h
      · split at h
        · split at h <;> cases h
        · cases h
      · cases h
      · rename_i h2 _ _; cases h; exact h2 rfl
      split at h
      · split at h
        · split at h <;> cases h
        · cases h
      · cases h
      · rename_i h2 _ _; cases h; exact h2 rfl
      · split at h
        · split at h <;> cases h
        · cases h

/-- Four samples at 1/e, a fit that succeeds and a root finder that raises. -/
example : exponentialRelaxation (fun _ _ _ => .ok ⟨1, 1, 0, 0⟩)
    (fun _ _ _ => .error .floatingPointError) [1, 2, 3, 4]
    (List.replicate 4 (some (1 / Real.exp 1))) none = .error .floatingPointError :=
  (C80_exactly _ _ _ _ _ 1 ⟨[], 1 / Real.exp 1,
    [(2, 1 / Real.exp 1), (3, 1 / Real.exp 1), (4, 1 / Real.exp 1)], rfl, by simp, by simp⟩).2
    ⟨rfl, four_samples, ⟨1, 1, 0, 0⟩, rfl, le_rfl, le_rfl, rfl⟩

end Verif.RelaxTime
