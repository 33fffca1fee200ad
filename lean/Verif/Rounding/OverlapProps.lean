import Verif.Dynamics.OverlapProps
import Verif.Rounding.OverlapLemmas
/-!
# C121: the number of mobile molecules in floats
-/

namespace Verif.Rounding

open Verif.Dynamics

/-- **C121, the property as stated**: for a fraction written as a decimal number, `mobile_overlap` takes
the whole part of the fraction of the molecules. -/
def TakesFraction : Prop :=
  ∀ (n : ℕ) (q : ℚ), 0 ≤ q → q ≤ 1 → n ≤ 2 ^ 52 → numElements64 n (float64.fl q) = ⌊n * q⌋

/-- **C121, the default**: for `fraction=0.1`, the only one in use, rounding makes no difference to the
number of molecules for up to 2^52 of them, so the overlap is that of exact arithmetic, rounded once. -/
theorem C121_tenth_partial (argsort : List ℝ → List ℕ) (a b : List ℝ) (ha : a.length ≤ 2 ^ 52) :
    mobileOverlap64 argsort a b = (mobileOverlap argsort a b).map float64.fl := by
  have h : (numElements64 a.length (float64.fl (1 / 10))).toNat = (⌊(a.length : ℚ) * (1 / 10)⌋).toNat := by
    rw [numElements64_tenth _ ha]
    have : ⌊(a.length : ℚ) * (1 / 10)⌋ = ((a.length / 10 : ℕ) : ℤ) := by
      rw [mul_one_div]
      have := Rat.floor_natCast_div_natCast a.length 10
      push_cast at this ⊢
      exact this
    rw [this]
  unfold mobileOverlap64 mobileOverlap
  simp only [h]
  split <;> rfl

example : (List.replicate 25 (1 : ℝ)).length ≤ 2 ^ 52 := by rw [List.length_replicate]; norm_num

/-- In numbers: a tenth, rounded down. -/
theorem C121_number (n : ℕ) (hn : n ≤ 2 ^ 52) : numElements64 n (float64.fl (1 / 10)) = (n / 10 : ℕ) :=
  numElements64_tenth n hn

/-- **C121, any fraction**: never more than one molecule too many or too few. -/
theorem C121_within_one_partial (n : ℕ) (q : ℚ) (h0 : 0 ≤ q) (h1 : q ≤ 1) (hn : n ≤ 2 ^ 51) :
    |numElements64 n (float64.fl q) - ⌊n * q⌋| ≤ 1 := by
  have hf : ⌊(n : ℚ) * q⌋ = ⌊(n : ℝ) * (q : ℝ)⌋ := by
    rw [← Rat.floor_cast (α := ℝ)]
    push_cast
    rfl
  rw [hf]
  exact numElements64_near n q (by exact_mod_cast h0) (by exact_mod_cast h1) hn

example : (0 : ℚ) ≤ 29 / 100 ∧ (29 / 100 : ℚ) ≤ 1 ∧ 100 ≤ 2 ^ 51 := by norm_num

/-- **C121 is false of the code** for other fractions: of 100 molecules `0.29` is 28. -/
theorem C121_refuted : ¬ TakesFraction := by
  intro h
  have h1 := h 100 (29 / 100) (by norm_num) (by norm_num) (by norm_num)
  have h2 : ⌊((100 : ℕ) : ℚ) * (29 / 100)⌋ = 29 := by norm_num
  rw [h2] at h1
  have e1 : float64.fl ((29 / 100 : ℚ) : ℝ) = (5224175567749775 : ℤ) * 2 ^ (-54 : ℤ) :=
    fl_eval float64 (k := -2) (by push_cast; norm_num) (by push_cast; norm_num) (by decide)
      (by push_cast; norm_num [abs_lt])
  have e2 : float64.fl (((100 : ℕ) : ℝ) * ((5224175567749775 : ℤ) * 2 ^ (-54 : ℤ))) =
      (8162774324609023 : ℤ) * 2 ^ (-48 : ℤ) :=
    fl_eval float64 (k := 4) (by push_cast; norm_num) (by push_cast; norm_num) (by decide)
      (by push_cast; norm_num [abs_lt])
  unfold numElements64 at h1
  simp only [e1, e2] at h1
  rw [if_pos (by positivity), Int.floor_eq_iff] at h1
  have := h1.1
  push_cast at this
  norm_num at this

end Verif.Rounding
