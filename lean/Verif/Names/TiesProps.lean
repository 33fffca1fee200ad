import Verif.Names.Lemmas
/-!
# Ties and signs of the numbers in file names: C55
-/

namespace Verif.Names

theorem roundHalfEven_even (x : ℚ) (h : |(roundHalfEven x : ℚ) - x| = 1 / 2) : roundHalfEven x % 2 = 0 := by
  have h1 := Int.floor_le x
  have h2 := Int.lt_floor_add_one x
  unfold roundHalfEven at h ⊢
  split_ifs at h ⊢ with ha hb hc
  · rw [abs_of_nonpos (by linarith)] at h
    linarith
  · push_cast at h
    rw [abs_of_nonneg (by linarith)] at h
    linarith
  · exact hc
  · omega

/-- **C55, ties.**  Of a number halfway between two with two decimals the one with the even last digit is written; of a
negative number, the text of its absolute value after a sign. -/
theorem C55_ties (x : ℚ) (hx : 0 ≤ x) :
    (∃ (r : ℚ) (n : ℤ), DecimalText (fmt2 x) r ∧ r = n / 100 ∧ |r - x| ≤ 1 / 200 ∧
      (|r - x| = 1 / 200 → n % 2 = 0)) ∧ (x ≠ 0 → fmt2 (-x) = '-' :: fmt2 x) := by
  constructor
  · have hn := roundHalfEven_nonneg (100 * |x|) (by positivity)
    have hr := roundHalfEven_near (100 * |x|)
    have he := roundHalfEven_even (100 * |x|)
    obtain ⟨n, hn'⟩ := Int.eq_ofNat_of_zero_le hn
    obtain ⟨ds, h1, h2, h3, h4⟩ := showNat_digits (n / 100)
    have hab : |(n : ℚ) / 100 - x| = |(n : ℚ) - 100 * x| / 100 := by
      rw [show (n : ℚ) / 100 - x = ((n : ℚ) - 100 * x) / 100 by ring, abs_div]
      norm_num
    rw [hn', abs_of_nonneg hx] at hr he
    push_cast at hr he
    refine ⟨(n : ℚ) / 100, n, ⟨ds, n % 100 / 10, n % 10, h1, h2, by omega, by omega, ?_, ?_⟩, by simp, ?_, ?_⟩
    · unfold fmt2
      simp only [hn', Int.toNat_natCast, if_neg (not_lt.2 hx), List.nil_append, h3]
    · rw [h4]
      have : n = 100 * (n / 100) + (10 * (n % 100 / 10) + n % 10) := by omega
      have hq : (n : ℚ) = ((100 * (n / 100) + (10 * (n % 100 / 10) + n % 10) : ℕ) : ℚ) := by
        exact_mod_cast this
      rw [hq]
      push_cast
      ring_nf
    · rw [hab]
      linarith
    · intro h
      rw [hab] at h
      exact he (by linarith)
  · intro h0
    have hpos : 0 < x := lt_of_le_of_ne hx (Ne.symm h0)
    unfold fmt2
    simp only [abs_neg, if_pos (neg_lt_zero.2 hpos), if_neg (not_lt.2 hx), List.nil_append, List.cons_append]

/-- 0.125 is halfway between 0.12 and 0.13. -/
example : |(12 / 100 : ℚ) - 1 / 8| = 1 / 200 ∧ |(13 / 100 : ℚ) - 1 / 8| = 1 / 200 := by
  constructor <;> norm_num [abs_of_neg, abs_of_pos]

end Verif.Names
