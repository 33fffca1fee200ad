import Mathlib.Tactic.Ring
import Mathlib.Tactic.Linarith
import Mathlib.Tactic.Positivity
import Mathlib.Tactic.NormNum
import Mathlib.Tactic.FieldSimp
import Mathlib.Tactic.Push
import Mathlib.Algebra.Order.Round
import Verif.Rounding.Spec
/-!
# Lemmas on rounding
-/

namespace Verif.Rounding

theorem roundEven_near (x : ℝ) : |(roundEven x : ℝ) - x| ≤ 1 / 2 := by
  have h0 := Int.floor_le x
  have h1 := Int.lt_floor_add_one x
  unfold roundEven
  split
  · rw [abs_le]; constructor <;> linarith
  · split
    · push_cast; rw [abs_le]; constructor <;> linarith
    · split
      · rw [abs_le]; constructor <;> linarith
      · push_cast; rw [abs_le]; constructor <;> linarith

theorem roundEven_even (x : ℝ) (h : |(roundEven x : ℝ) - x| = 1 / 2) : roundEven x % 2 = 0 := by
  have h0 := Int.floor_le x
  have h1 := Int.lt_floor_add_one x
  unfold roundEven at h ⊢
  by_cases c1 : x - ⌊x⌋ < 1 / 2
  · rw [if_pos c1] at h
    rw [abs_of_nonpos (by linarith)] at h; linarith
  rw [if_neg c1] at h ⊢
  by_cases c2 : 1 / 2 < x - ⌊x⌋
  · rw [if_pos c2] at h
    push_cast at h
    rw [abs_of_nonneg (by linarith)] at h; linarith
  rw [if_neg c2] at h ⊢
  by_cases c3 : ⌊x⌋ % 2 = 0
  · rw [if_pos c3]; exact c3
  · rw [if_neg c3]; omega

/-- An integer at least as near as the half, and even if it is not nearer, is the rounded one. -/
theorem roundEven_eq {x : ℝ} {n : ℤ} (h : |(n : ℝ) - x| ≤ 1 / 2)
    (he : |(n : ℝ) - x| = 1 / 2 → n % 2 = 0) : roundEven x = n := by
  have hr := roundEven_near x
  have hre := roundEven_even x
  by_contra hne
  rw [abs_le] at h hr
  have hlt : (roundEven x : ℝ) - n < 1 + 1 / 2 := by linarith
  have hgt : -(1 + 1 / 2) < (roundEven x : ℝ) - n := by linarith
  have hlt' : roundEven x - n < 2 := by
    have : ((roundEven x - n : ℤ) : ℝ) < 2 := by push_cast; linarith
    exact_mod_cast this
  have hgt' : -2 < roundEven x - n := by
    have : (-2 : ℝ) < ((roundEven x - n : ℤ) : ℝ) := by push_cast; linarith
    exact_mod_cast this
  rcases (show roundEven x = n + 1 ∨ roundEven x = n - 1 by omega) with e | e
  · have e' : (roundEven x : ℝ) = n + 1 := by exact_mod_cast e
    have a1 : |(n : ℝ) - x| = 1 / 2 := by rw [abs_of_nonpos (by linarith)]; linarith
    have a2 : |(roundEven x : ℝ) - x| = 1 / 2 := by rw [abs_of_nonneg (by linarith)]; linarith
    have := he a1
    have := hre a2
    omega
  · have e' : (roundEven x : ℝ) = n - 1 := by rw [e]; push_cast; ring
    have a1 : |(n : ℝ) - x| = 1 / 2 := by rw [abs_of_nonneg (by linarith)]; linarith
    have a2 : |(roundEven x : ℝ) - x| = 1 / 2 := by rw [abs_of_nonpos (by linarith)]; linarith
    have := he a1
    have := hre a2
    omega

theorem roundEven_int (n : ℤ) : roundEven (n : ℝ) = n :=
  roundEven_eq (by rw [sub_self, abs_zero]; norm_num) (by rw [sub_self, abs_zero]; norm_num)

theorem roundEven_neg (x : ℝ) : roundEven (-x) = -roundEven x := by
  have e : ((-roundEven x : ℤ) : ℝ) - -x = -((roundEven x : ℝ) - x) := by push_cast; ring
  apply roundEven_eq
  · rw [e, abs_neg]; exact roundEven_near x
  · rw [e, abs_neg]; intro h; have := roundEven_even x h; omega

theorem roundEven_le (x : ℝ) (n : ℤ) : |(roundEven x : ℝ) - x| ≤ |(n : ℝ) - x| := by
  have hr := roundEven_near x
  by_contra h
  push Not at h
  have h2 : |(n : ℝ) - x| < 1 / 2 := by linarith
  rw [roundEven_eq h2.le (fun e => by linarith)] at h
  exact lt_irrefl _ h

theorem roundEven_bound {x : ℝ} {n : ℤ} (h : |x| ≤ n) : |roundEven x| ≤ n := by
  have hr := roundEven_near x
  rw [abs_le] at h hr ⊢
  constructor
  · have : (-(n : ℝ)) - 1 < roundEven x := by linarith
    have : ((-n - 1 : ℤ) : ℝ) < roundEven x := by push_cast; linarith
    have : -n - 1 < roundEven x := by exact_mod_cast this
    omega
  · have : (roundEven x : ℝ) < ((n + 1 : ℤ) : ℝ) := by push_cast; linarith
    have : roundEven x < n + 1 := by exact_mod_cast this
    omega

variable (F : Format)

theorem quantum_pos (x : ℝ) : (0 : ℝ) < 2 ^ F.exp x := zpow_pos (by norm_num) _

theorem exp_neg (x : ℝ) : F.exp (-x) = F.exp x := by
  unfold Format.exp; rw [abs_neg]

theorem fl_neg (x : ℝ) : F.fl (-x) = -F.fl x := by
  unfold Format.fl
  rw [exp_neg, neg_div, roundEven_neg]
  push_cast; ring

theorem fl_zero : F.fl 0 = 0 := by
  unfold Format.fl
  rw [zero_div]
  have : roundEven (0 : ℝ) = 0 := by exact_mod_cast roundEven_int 0
  rw [this]; simp

/-- The error is at most half a unit in the last place. -/
theorem fl_half (x : ℝ) : |F.fl x - x| ≤ 2 ^ F.exp x / 2 := by
  have hq := quantum_pos F x
  have h := roundEven_near (x / 2 ^ F.exp x)
  have e : F.fl x - x = (roundEven (x / 2 ^ F.exp x) - x / 2 ^ F.exp x) * 2 ^ F.exp x := by
    unfold Format.fl
    rw [sub_mul, div_mul_cancel₀ _ hq.ne']
  rw [e, abs_mul, abs_of_pos hq]
  nlinarith

theorem two_zpow_le {a b : ℤ} (h : a ≤ b) : (2 : ℝ) ^ a ≤ 2 ^ b :=
  zpow_le_zpow_right₀ (by norm_num) h

theorem abs_lt_quantum (x : ℝ) : |x| < 2 ^ ((F.digits : ℤ) + F.exp x) := by
  refine lt_of_lt_of_le (Int.lt_zpow_succ_log_self (b := 2) (by norm_num) |x|) ?_
  push_cast
  apply two_zpow_le
  have := le_max_left (Int.log 2 |x| - ((F.digits : ℤ) - 1)) F.emin
  unfold Format.exp
  omega

theorem fl_number (x : ℝ) : F.Number (F.fl x) := by
  refine ⟨roundEven (x / 2 ^ F.exp x), F.exp x, ?_, le_max_right _ _, rfl⟩
  have hq := quantum_pos F x
  have : |x / 2 ^ F.exp x| ≤ ((2 ^ F.digits : ℤ) : ℝ) := by
    rw [abs_div, abs_of_pos hq, div_le_iff₀ hq]
    have := abs_lt_quantum F x
    rw [zpow_add₀ (by norm_num)] at this
    push_cast
    rw [← zpow_natCast]
    exact this.le
  exact roundEven_bound this

/-- The nearest multiple of the last digit. -/
theorem fl_le_multiple (x : ℝ) (n : ℤ) : |F.fl x - x| ≤ |n * 2 ^ F.exp x - x| := by
  have hq := quantum_pos F x
  have e (k : ℤ) : (k : ℝ) * 2 ^ F.exp x - x = (k - x / 2 ^ F.exp x) * 2 ^ F.exp x := by
    rw [sub_mul, div_mul_cancel₀ _ hq.ne']
  unfold Format.fl
  rw [e, e, abs_mul, abs_mul]
  exact mul_le_mul_of_nonneg_right (roundEven_le _ n) (abs_nonneg _)

theorem fl_nearest (hF : 1 ≤ F.digits) : Nearest F F.fl := by
  refine fun x => ⟨fl_number F x, ?_⟩
  rintro y ⟨m, e, hm, he, rfl⟩
  by_cases hk : F.exp x ≤ e
  · obtain ⟨k, rfl⟩ : ∃ k : ℕ, e = F.exp x + k := ⟨(e - F.exp x).toNat, by omega⟩
    have := fl_le_multiple F x (m * 2 ^ k)
    rw [zpow_add₀ (by norm_num), zpow_natCast]
    push_cast at this
    rw [show (m : ℝ) * (2 ^ F.exp x * 2 ^ k) = m * 2 ^ k * 2 ^ F.exp x by ring]
    exact this
  · push Not at hk
    have hlog : F.exp x = Int.log 2 |x| - ((F.digits : ℤ) - 1) := by
      unfold Format.exp at hk ⊢
      rcases max_cases (Int.log 2 |x| - ((F.digits : ℤ) - 1)) F.emin with h | h
      · exact h.1
      · omega
    have hm' : |(m : ℝ)| ≤ 2 ^ F.digits := by exact_mod_cast hm
    have hy : |(m : ℝ) * 2 ^ e| ≤ 2 ^ Int.log 2 |x| := by
      rw [abs_mul, abs_of_pos (zpow_pos (by norm_num : (0 : ℝ) < 2) e)]
      calc |(m : ℝ)| * 2 ^ e ≤ 2 ^ F.digits * 2 ^ e :=
            mul_le_mul_of_nonneg_right hm' (zpow_pos (by norm_num) e).le
        _ = 2 ^ ((F.digits : ℤ) + e) := by rw [zpow_add₀ (by norm_num), zpow_natCast]
        _ ≤ _ := two_zpow_le (by omega)
    by_cases hx : x = 0
    · subst hx; rw [fl_zero, sub_self, abs_zero]; exact abs_nonneg _
    have hx0 : 0 < |x| := abs_pos.2 hx
    have hlow : (2 : ℝ) ^ Int.log 2 |x| ≤ |x| := by
      have := Int.zpow_log_le_self (b := 2) (by norm_num) hx0
      exact_mod_cast this
    -- the power of two below `x` is a multiple of the last digit and not farther than `y`
    obtain ⟨d, hd'⟩ : ∃ d : ℕ, F.digits = d + 1 := ⟨F.digits - 1, by omega⟩
    have hpow : (2 : ℝ) ^ Int.log 2 |x| = 2 ^ d * 2 ^ F.exp x := by
      rw [← zpow_natCast, ← zpow_add₀ (by norm_num)]
      congr 1
      rw [hlog, hd']; push_cast; ring
    have hy' := abs_le.1 hy
    rcases lt_or_gt_of_ne hx with h | h
    · have h1 := fl_le_multiple F x (-2 ^ d)
      push_cast at h1
      rw [neg_mul, ← hpow] at h1
      rw [abs_of_neg h] at hlow
      rw [abs_of_neg h] at h1 hy'
      rw [abs_of_nonneg (by linarith : 0 ≤ -(2 : ℝ) ^ Int.log 2 (-x) - x)] at h1
      rw [abs_of_nonneg (by linarith : 0 ≤ (m : ℝ) * 2 ^ e - x)]
      linarith
    · have h1 := fl_le_multiple F x (2 ^ d)
      push_cast at h1
      rw [← hpow] at h1
      rw [abs_of_pos h] at hlow
      rw [abs_of_pos h] at h1 hy'
      rw [abs_of_nonpos (by linarith : (2 : ℝ) ^ Int.log 2 x - x ≤ 0)] at h1
      rw [abs_of_nonpos (by linarith : (m : ℝ) * 2 ^ e - x ≤ 0)]
      linarith

variable {F}

/-- A function giving nearest numbers is monotone. -/
theorem Nearest.mono {f : ℝ → ℝ} (h : Nearest F f) {x y : ℝ} (hxy : x ≤ y) : f x ≤ f y := by
  by_contra hlt
  push Not at hlt
  have h1 := (h x).2 (f y) (h y).1
  have h2 := (h y).2 (f x) (h x).1
  have hne : x ≠ y := fun e => by rw [e] at hlt; exact lt_irrefl _ hlt
  have hlt' : x < y := lt_of_le_of_ne hxy hne
  rcases abs_cases (f x - x) with a | a <;> rcases abs_cases (f y - x) with b | b <;>
    rcases abs_cases (f y - y) with c | c <;> rcases abs_cases (f x - y) with d | d <;> linarith

theorem Nearest.exact {f : ℝ → ℝ} (h : Nearest F f) {x : ℝ} (hx : F.Number x) : f x = x := by
  have := (h x).2 x hx
  rw [sub_self, abs_zero] at this
  have := abs_nonpos_iff.1 this
  linarith

end Verif.Rounding
