import Verif.Rounding.NormProps
import Verif.Rounding.ScatterLemmas
/-!
# Exactly when the proportion of near molecules is right: C130
-/

namespace Verif.Rounding

open Verif.Motion Verif.Dynamics

variable {sum : List ℝ → ℝ}

/-- Different proportions of up to 2^50 are different floats. -/
theorem proportion_inj {a b n : ℕ} (hn : n ≤ 2 ^ 50) (ha : a ≤ n) (hb : b ≤ n)
    (h : float64.fl ((a : ℝ) / n) = float64.fl ((b : ℝ) / n)) : a = b := by
  rcases Nat.eq_zero_or_pos n with h0 | h0
  · omega
  have hn0 : (0 : ℝ) < n := by exact_mod_cast h0
  have hn' : (n : ℝ) ≤ 2 ^ 50 := by exact_mod_cast hn
  have frac : ∀ c : ℕ, c ≤ n → |float64.fl ((c : ℝ) / n) - c / n| ≤ 1 / 2 ^ 52 := by
    intro c hc
    have h1 : |(c : ℝ) / n| ≤ 1 := by
      rw [abs_of_nonneg (by positivity)]
      exact div_le_one_of_le₀ (by exact_mod_cast hc) hn0.le
    have h2 := fl64_error' ((c : ℝ) / n)
    have h3 := t1075
    norm_num at h2 h3 ⊢
    linarith
  have key : ∀ c e : ℕ, c ≤ n → e ≤ n → float64.fl ((c : ℝ) / n) = float64.fl ((e : ℝ) / n) → ¬ c < e := by
    intro c e hc he heq hlt
    have h1 := abs_le.1 (frac c hc)
    have h2 := abs_le.1 (frac e he)
    rw [heq] at h1
    have h3 : (e : ℝ) / n - c / n ≤ 2 / 2 ^ 52 := by
      have := h1.2
      have := h2.1
      norm_num at *
      linarith
    have h4 : (1 : ℝ) / n ≤ e / n - c / n := by
      rw [← sub_div]
      apply div_le_div_of_nonneg_right _ hn0.le
      have : (c : ℝ) + 1 ≤ e := by exact_mod_cast hlt
      linarith
    have h5 : (1 : ℝ) / 2 ^ 50 ≤ 1 / n := one_div_le_one_div_of_le hn0 hn'
    rw [one_div] at h4
    norm_num at h3 h5
    linarith
  have := key a b ha hb h
  have := key b a hb ha h.symm
  omega

open Classical in
/-- **C130, exactly.**  For up to 2^50 molecules the proportion is the right one exactly when as many molecules that have
moved as far as the distance are counted, as molecules that have not are left out. -/
theorem C130_exactly {ds : List V3} (hn : ds.length ≤ 2 ^ 50) (d : ℝ) :
    comStruct32 sum d ds = float64.fl (shorter d ds) ↔
      (ds.filter (fun v => decide (norm32 sum v < float32.fl d ∧ d ≤ length3 v))).length =
      (ds.filter (fun v => decide (length3 v < d ∧ float32.fl d ≤ norm32 sum v))).length := by
  have e : ((ds.map (norm32 sum)).filter (fun x => decide (x < float32.fl d))).length =
      (ds.filter (fun v => decide (norm32 sum v < float32.fl d))).length := by
    rw [List.filter_map, List.length_map]; rfl
  have bal : ∀ l : List V3,
      (l.filter (fun v => decide (norm32 sum v < float32.fl d))).length +
        (l.filter (fun v => decide (length3 v < d ∧ float32.fl d ≤ norm32 sum v))).length =
      (l.filter (fun v => decide (length3 v < d))).length +
        (l.filter (fun v => decide (norm32 sum v < float32.fl d ∧ d ≤ length3 v))).length := by
    intro l
    induction l with
    | nil => rfl
    | cons v l ih =>
      simp only [List.filter_cons]
      by_cases h1 : norm32 sum v < float32.fl d <;> by_cases h2 : length3 v < d <;>
        simp only [← not_lt, h1, h2, not_true, not_false_eq_true, and_true, and_false, decide_true, decide_false,
          if_true, if_false, Bool.false_eq_true, List.length_cons] at ih ⊢ <;> omega
  have hb := bal ds
  constructor
  · intro h
    unfold comStruct32 shorter at h
    have hle : ∀ p : V3 → Bool, (ds.filter p).length ≤ ds.length := fun p => List.length_filter_le _ _
    rw [e] at h
    have := proportion_inj hn (hle _) (hle _) (by convert h using 4)
    omega
  · intro h
    have : (ds.filter (fun v => decide (norm32 sum v < float32.fl d))).length =
        (ds.filter (fun v => decide (length3 v < d))).length := by omega
    unfold comStruct32 shorter
    rw [e, this]

open Classical in
/-- Of two molecules that have moved by 1/2 and by 2, at the distance 1, as many are counted wrongly as are left out. -/
example :
    let ds : List V3 := [(1 / 2, 0, 0), (2, 0, 0)]
    (ds.filter (fun v => decide (norm32 sumLeft v < float32.fl 1 ∧ 1 ≤ length3 v))).length =
      (ds.filter (fun v => decide (length3 v < 1 ∧ float32.fl 1 ≤ norm32 sumLeft v))).length := by
  intro ds
  have e (x : ℝ) (hx : 0 ≤ x) : length3 (x, 0, 0) = x := by
    unfold length3
    simp [Real.sqrt_sq hx]
  refine (C130_exactly (by simp [ds]) 1).1 (C130_apart_partial sumLeft_sum ?_ ?_ ?_)
  · intro v hv
    simp only [ds, List.mem_cons, List.not_mem_nil, or_false] at hv
    rcases hv with rfl | rfl
    · refine ⟨.inr ?_, .inl rfl, .inl rfl⟩; norm_num [abs_of_pos]
    · refine ⟨.inr ?_, .inl rfl, .inl rfl⟩; norm_num [abs_of_pos]
  · have : (2 : ℝ) ^ (-126 : ℤ) ≤ 2 ^ (0 : ℤ) := two_zpow_le (by norm_num)
    simpa using this
  · intro v hv
    simp only [ds, List.mem_cons, List.not_mem_nil, or_false] at hv
    rcases hv with rfl | rfl
    · left; rw [e _ (by norm_num)]; norm_num
    · right; rw [e _ (by norm_num)]; norm_num

end Verif.Rounding
