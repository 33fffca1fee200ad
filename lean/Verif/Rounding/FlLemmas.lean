import Verif.Rounding.Lemmas
/-!
# Error bounds of a rounded operation, and sums that do not change
-/

namespace Verif.Rounding

/-- The relative error of rounding, with the error of the smallest numbers. -/
theorem fl_rel (F : Format) (x : ℝ) :
    |F.fl x - x| ≤ 2 ^ (-(F.digits : ℤ)) * |x| + 2 ^ (F.emin - 1) := by
  have hpos0 : (0 : ℝ) < 2 ^ (F.emin - 1) := zpow_pos (by norm_num) _
  by_cases hx : x = 0
  · subst hx
    rw [fl_zero, sub_self, abs_zero, mul_zero, zero_add]
    exact hpos0.le
  refine (fl_half F x).trans ?_
  have hpos' : (0 : ℝ) < 2 ^ (-(F.digits : ℤ)) := zpow_pos (by norm_num) _
  have half (a : ℤ) : (2 : ℝ) ^ a / 2 = 2 ^ (a - 1) := by
    rw [zpow_sub₀ (by norm_num), zpow_one]
  rw [half]
  unfold Format.exp
  rcases max_cases (Int.log 2 |x| - ((F.digits : ℤ) - 1)) F.emin with h | h
  · rw [h.1]
    have hx0 : 0 < |x| := abs_pos.2 hx
    have hlow : (2 : ℝ) ^ Int.log 2 |x| ≤ |x| := by
      have := Int.zpow_log_le_self (b := 2) (by norm_num) hx0
      exact_mod_cast this
    have e : (2 : ℝ) ^ (Int.log 2 |x| - ((F.digits : ℤ) - 1) - 1) =
        2 ^ (-(F.digits : ℤ)) * 2 ^ Int.log 2 |x| := by
      rw [← zpow_add₀ (by norm_num)]; congr 1; ring
    rw [e]
    nlinarith
  · rw [h.1]
    have := mul_nonneg hpos'.le (abs_nonneg x)
    linarith

theorem fl_exact (F : Format) (hF : 1 ≤ F.digits) {x : ℝ} (hx : F.Number x) : F.fl x = x :=
  (fl_nearest F hF).exact hx

/-- Whole multiples of a power of two, not too many, are numbers. -/
theorem number_mul (F : Format) {m e : ℤ} (hm : |m| ≤ 2 ^ F.digits) (he : F.emin ≤ e) :
    F.Number (m * (2 : ℝ) ^ e) := ⟨m, e, hm, he, rfl⟩

/-- A number of the size of `2 ^ k` is a multiple of the last digit of that size. -/
theorem number_multiple (F : Format) (hF : 1 ≤ F.digits) {t : ℝ} (ht : F.Number t) {k : ℤ}
    (hk : (2 : ℝ) ^ k ≤ |t|) : ∃ n : ℤ, t = n * (2 : ℝ) ^ (k - ((F.digits : ℤ) - 1)) := by
  obtain ⟨m, e, hm, -, rfl⟩ := ht
  obtain ⟨d, hd⟩ : ∃ d : ℕ, F.digits = d + 1 := ⟨F.digits - 1, by omega⟩
  have hm' : |(m : ℝ)| ≤ 2 ^ F.digits := by exact_mod_cast hm
  have he0 : (0 : ℝ) < 2 ^ e := zpow_pos (by norm_num) _
  rw [abs_mul, abs_of_pos he0] at hk
  by_cases he : k - ((F.digits : ℤ) - 1) ≤ e
  · obtain ⟨j, hj⟩ : ∃ j : ℕ, e = k - ((F.digits : ℤ) - 1) + j :=
      ⟨(e - (k - ((F.digits : ℤ) - 1))).toNat, by omega⟩
    refine ⟨m * 2 ^ j, ?_⟩
    rw [hj, zpow_add₀ (by norm_num), zpow_natCast]
    push_cast; ring
  · push Not at he
    have h1 : (2 : ℝ) ^ k ≤ 2 ^ F.digits * 2 ^ e := hk.trans (mul_le_mul_of_nonneg_right hm' he0.le)
    rw [← zpow_natCast, ← zpow_add₀ (by norm_num)] at h1
    have h2 : k ≤ (F.digits : ℤ) + e := (zpow_le_zpow_iff_right₀ (by norm_num : (1 : ℝ) < 2)).1 h1
    have h3 : k = (F.digits : ℤ) + e := by omega
    have h4 : (2 : ℝ) ^ F.digits ≤ |(m : ℝ)| := by
      rw [h3, zpow_add₀ (by norm_num), zpow_natCast] at hk
      exact le_of_mul_le_mul_right hk he0
    have h5 : |(m : ℝ)| = 2 ^ F.digits := le_antisymm hm' h4
    have e1 : k - ((F.digits : ℤ) - 1) = e + 1 := by omega
    rw [e1, zpow_add₀ (by norm_num), zpow_one]
    rcases abs_cases (m : ℝ) with a | a
    · refine ⟨2 ^ d, ?_⟩
      rw [a.1] at h5
      rw [h5, hd, pow_succ]; push_cast; ring
    · refine ⟨-2 ^ d, ?_⟩
      rw [a.1] at h5
      have : (m : ℝ) = -2 ^ F.digits := by linarith
      rw [this, hd, pow_succ]; push_cast; ring

/-- Adding something below a quarter of the last digit of a number of the size of `2 ^ k` does not
change it. -/
theorem fl_absorb (F : Format) (hF : 1 ≤ F.digits) {t w : ℝ} (ht : F.Number t) {k : ℤ}
    (hk : (2 : ℝ) ^ k ≤ |t|) (hemin : F.emin + F.digits ≤ k)
    (hw : |w| < 2 ^ (k - (F.digits : ℤ) - 1)) : F.fl (t - w) = t := by
  -- first for positive numbers
  have main : ∀ {t w : ℝ}, F.Number t → (2 : ℝ) ^ k ≤ t → |w| < 2 ^ (k - (F.digits : ℤ) - 1) →
      F.fl (t - w) = t := by
    clear ht hk hw t w
    intro t w ht hk hw
    have ht0 : 0 < t := lt_of_lt_of_le (zpow_pos (by norm_num) _) hk
    -- the power of two below `t`
    obtain ⟨k', hk', hlow, hhigh⟩ : ∃ k' : ℤ, k ≤ k' ∧ (2 : ℝ) ^ k' ≤ t ∧ t < 2 ^ (k' + 1) := by
      refine ⟨Int.log 2 t, ?_, ?_, ?_⟩
      · exact (Int.zpow_le_iff_le_log (b := 2) (by norm_num) ht0).1 (by exact_mod_cast hk)
      · have := Int.zpow_log_le_self (b := 2) (by norm_num) ht0
        exact_mod_cast this
      · have := Int.lt_zpow_succ_log_self (b := 2) (by norm_num) t
        exact_mod_cast this
    have hw' : |w| < 2 ^ (k' - (F.digits : ℤ) - 1) := lt_of_lt_of_le hw (two_zpow_le (by omega))
    obtain ⟨n, hn⟩ := number_multiple F hF ht (k := k') (by rw [abs_of_pos ht0]; exact hlow)
    set q : ℝ := 2 ^ (k' - ((F.digits : ℤ) - 1)) with hq
    have hq0 : 0 < q := zpow_pos (by norm_num) _
    have hwq : |w| < q / 4 := by
      have : (2 : ℝ) ^ (k' - (F.digits : ℤ) - 1) = q / 4 := by
        rw [hq, show k' - (F.digits : ℤ) - 1 = k' - ((F.digits : ℤ) - 1) - 2 by ring,
          zpow_sub₀ (by norm_num)]
        norm_num
      rwa [this] at hw'
    have hq1 : q ≤ 2 ^ k' := two_zpow_le (by omega)
    have hpow1 : (2 : ℝ) ^ (k' + 1) = 2 * 2 ^ k' := by
      rw [zpow_add₀ (by norm_num), zpow_one]; ring
    -- `t` is at least one last digit below the next power of two
    have htop : t + q ≤ 2 ^ (k' + 1) := by
      have e2 : (2 : ℝ) ^ (k' + 1) = ((2 ^ F.digits : ℤ) : ℝ) * q := by
        rw [hq]; push_cast
        rw [← zpow_natCast, ← zpow_add₀ (by norm_num)]; congr 1; ring
      rw [e2] at hhigh ⊢
      rw [hn] at hhigh ⊢
      have : (n : ℝ) < ((2 ^ F.digits : ℤ) : ℝ) := lt_of_mul_lt_mul_right hhigh hq0.le
      have h1 : n < 2 ^ F.digits := by exact_mod_cast this
      have h2 : n + 1 ≤ 2 ^ F.digits := by omega
      have h3 : (n : ℝ) + 1 ≤ ((2 ^ F.digits : ℤ) : ℝ) := by exact_mod_cast h2
      nlinarith
    have hwa := abs_lt.1 hwq
    have hx0 : 0 < t - w := by
      have : (0 : ℝ) < 2 ^ k' := zpow_pos (by norm_num) _
      linarith
    have hlog1 : k' - 1 ≤ Int.log 2 (t - w) := by
      refine (Int.zpow_le_iff_le_log (b := 2) (by norm_num) hx0).1 ?_
      have : (2 : ℝ) ^ (k' - 1) = 2 ^ k' / 2 := by rw [zpow_sub₀ (by norm_num), zpow_one]
      push_cast
      rw [this]; linarith
    have hlog2 : Int.log 2 (t - w) < k' + 1 := by
      refine (Int.lt_zpow_iff_log_lt (b := 2) (by norm_num) hx0).1 ?_
      push_cast
      linarith
    have hexp : F.exp (t - w) = k' - ((F.digits : ℤ) - 1) ∨
        F.exp (t - w) = k' - ((F.digits : ℤ) - 1) - 1 := by
      unfold Format.exp
      rw [abs_of_pos hx0]
      omega
    have fin : ∀ n' : ℤ, t = n' * 2 ^ F.exp (t - w) → |w| < 2 ^ F.exp (t - w) / 2 →
        F.fl (t - w) = t := by
      intro n' hn' hw2
      have hp := quantum_pos F (t - w)
      have e3 : (n' : ℝ) - (t - w) / 2 ^ F.exp (t - w) = w / 2 ^ F.exp (t - w) := by
        rw [eq_div_iff hp.ne', sub_mul, div_mul_cancel₀ _ hp.ne', ← hn']; ring
      have h4 : |(n' : ℝ) - (t - w) / 2 ^ F.exp (t - w)| < 1 / 2 := by
        rw [e3, abs_div, abs_of_pos hp, div_lt_iff₀ hp]; linarith
      have := roundEven_eq h4.le (fun e => absurd e h4.ne)
      unfold Format.fl
      rw [this]; exact hn'.symm
    rcases hexp with h | h
    · exact fin n (by rw [h]; exact hn) (by rw [h, ← hq]; linarith)
    · have e4 : (2 : ℝ) ^ F.exp (t - w) = q / 2 := by
        rw [h, zpow_sub₀ (by norm_num), zpow_one]
      exact fin (2 * n) (by rw [e4]; push_cast; rw [hn]; ring) (by rw [e4]; linarith)
  rcases abs_cases t with a | a
  · rw [a.1] at hk; exact main ht hk hw
  · rw [a.1] at hk
    have hneg : F.Number (-t) := by
      obtain ⟨m, e, hm, he, rfl⟩ := ht
      exact ⟨-m, e, by rwa [abs_neg], he, by push_cast; ring⟩
    have := main (w := -w) hneg hk (by rwa [abs_neg])
    rw [show -t - -w = -(t - w) by ring, fl_neg] at this
    linarith

end Verif.Rounding
