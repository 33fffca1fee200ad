import Verif.Rounding.FlLemmas
import Verif.Rounding.OverlapModel
/-!
# Lemmas on `mobile_overlap` with floats
-/

namespace Verif.Rounding

/-- Rounding worked out. -/
theorem fl_eval (F : Format) {x : ℝ} {k e n : ℤ} (h1 : (2 : ℝ) ^ k ≤ x) (h2 : x < 2 ^ (k + 1))
    (he : e = max (k - (F.digits - 1)) F.emin) (hn : |n - x / 2 ^ e| < 1 / 2) : F.fl x = n * 2 ^ e := by
  have hx : 0 < x := lt_of_lt_of_le (zpow_pos (by norm_num) _) h1
  have hlog : Int.log 2 |x| = k := by
    rw [abs_of_pos hx]
    have a1 : k ≤ Int.log 2 x := (Int.zpow_le_iff_le_log (b := 2) (by norm_num) hx).1 (by exact_mod_cast h1)
    have a2 : Int.log 2 x < k + 1 := (Int.lt_zpow_iff_log_lt (b := 2) (by norm_num) hx).1 (by exact_mod_cast h2)
    omega
  have hexp : F.exp x = e := by
    unfold Format.exp
    rw [hlog, he]
  unfold Format.fl
  rw [hexp, roundEven_eq (n := n) hn.le (fun h => by linarith)]

/-- The literal `0.1`. -/
theorem tenth64 : float64.fl (1 / 10) = 3602879701896397 * 2 ^ (-55 : ℤ) := by
  have := fl_eval float64 (x := 1 / 10) (k := -4) (e := -56) (n := 7205759403792794) (by norm_num) (by norm_num)
    (by decide) (by norm_num [abs_lt])
  rw [this]
  norm_num

theorem fl64_mono {x y : ℝ} (h : x ≤ y) : float64.fl x ≤ float64.fl y :=
  (fl_nearest float64 (by decide)).mono h

theorem fl64_whole {m : ℤ} (h : |m| ≤ 2 ^ 53) : float64.fl m = m :=
  fl_exact float64 (by decide) ⟨m, 0, h, by decide, by simp⟩

theorem fl64_error (x : ℝ) : |float64.fl x - x| ≤ 2 ^ (-53 : ℤ) * |x| + 2 ^ (-1075 : ℤ) := by
  have h := fl_rel float64 x
  rwa [show -((float64.digits : ℕ) : ℤ) = -53 from rfl, show float64.emin - 1 = -1075 from rfl] at h

/-- A tenth of a number of molecules, in floats. -/
theorem numElements64_tenth (n : ℕ) (hn : n ≤ 2 ^ 52) : numElements64 n (float64.fl (1 / 10)) = (n / 10 : ℕ) := by
  have hn' : (n : ℝ) ≤ 4503599627370496 := by
    have : n ≤ 4503599627370496 := hn
    exact_mod_cast this
  have h0 : (0 : ℝ) ≤ n := Nat.cast_nonneg n
  set x : ℝ := n * float64.fl (1 / 10) with hx
  have hx' : x = n / 10 * (1 + 2 ^ (-54 : ℤ)) := by
    rw [hx, tenth64]; norm_num; ring
  have hdiv : (10 * (n / 10 : ℕ) : ℝ) ≤ n ∧ (n : ℝ) ≤ 10 * (n / 10 : ℕ) + 9 := by
    constructor
    · exact_mod_cast Nat.mul_div_le n 10
    · have : n ≤ 10 * (n / 10) + 9 := by omega
      exact_mod_cast this
  have hlow : ((n / 10 : ℕ) : ℝ) ≤ x := by
    rw [hx']
    have : (0 : ℝ) ≤ 2 ^ (-54 : ℤ) := by positivity
    nlinarith
  have hk : (((n / 10 : ℕ) : ℤ) : ℝ) = ((n / 10 : ℕ) : ℝ) := by norm_cast
  have hfl1 : ((n / 10 : ℕ) : ℝ) ≤ float64.fl x := by
    have := fl64_mono hlow
    rwa [← hk, fl64_whole (by
      rw [abs_of_nonneg (by positivity)]
      have : n / 10 ≤ 2 ^ 53 := by omega
      exact_mod_cast this)] at this
  have hxn : 0 ≤ x := (Nat.cast_nonneg _).trans hlow
  have hfl2 : float64.fl x < ((n / 10 : ℕ) : ℝ) + 1 := by
    have he := (abs_le.1 (fl64_error x)).2
    rw [abs_of_nonneg hxn] at he
    have e1 : (2 : ℝ) ^ (-53 : ℤ) = 1 / 9007199254740992 := by norm_num
    have e2 : (2 : ℝ) ^ (-1075 : ℤ) ≤ 1 / 1000 := by
      refine (zpow_le_zpow_right₀ (by norm_num) (by norm_num : (-1075 : ℤ) ≤ -10)).trans ?_
      norm_num
    have e3 : (2 : ℝ) ^ (-54 : ℤ) = 1 / 18014398509481984 := by norm_num
    rw [e1] at he
    rw [e3] at hx'
    have hx2 : x ≤ n / 10 + 1 / 30 := by
      rw [hx']; linarith
    have hx3 : x ≤ 4503599627370496 / 10 + 1 := by linarith
    linarith
  unfold numElements64
  simp only [← hx]
  rw [if_pos ((Nat.cast_nonneg _).trans hfl1), Int.floor_eq_iff, hk]
  exact ⟨hfl1, hfl2⟩

/-- Two close numbers have close whole parts. -/
theorem floor_close {x y : ℝ} (h : |x - y| < 1) : |⌊x⌋ - ⌊y⌋| ≤ 1 := by
  obtain ⟨h1, h2⟩ := abs_lt.1 h
  have a1 := Int.floor_le x
  have a2 := Int.lt_floor_add_one x
  have b1 := Int.floor_le y
  have b2 := Int.lt_floor_add_one y
  have c1 : (⌊x⌋ : ℝ) < ⌊y⌋ + 2 := by linarith
  have c2 : (⌊y⌋ : ℝ) < ⌊x⌋ + 2 := by linarith
  have d1 : ⌊x⌋ < ⌊y⌋ + 2 := by exact_mod_cast c1
  have d2 : ⌊y⌋ < ⌊x⌋ + 2 := by exact_mod_cast c2
  rw [abs_le]
  omega

/-- A fraction of a number of molecules, in floats. -/
theorem numElements64_near (n : ℕ) (q : ℝ) (h0 : 0 ≤ q) (h1 : q ≤ 1) (hn : n ≤ 2 ^ 51) :
    |numElements64 n (float64.fl q) - ⌊n * q⌋| ≤ 1 := by
  have hn' : (n : ℝ) ≤ 2251799813685248 := by
    have : n ≤ 2251799813685248 := hn
    exact_mod_cast this
  have hn0 : (0 : ℝ) ≤ n := Nat.cast_nonneg n
  have e1 : (2 : ℝ) ^ (-53 : ℤ) = 1 / 9007199254740992 := by norm_num
  have e2 : (2 : ℝ) ^ (-1075 : ℤ) ≤ 1 / 9007199254740992 := by
    rw [← e1]
    exact zpow_le_zpow_right₀ (by norm_num) (by norm_num)
  have z0 : float64.fl 0 = 0 := fl_zero float64
  have f0 : 0 ≤ float64.fl q := by
    have := fl64_mono h0
    rwa [z0] at this
  have hq := fl64_error q
  rw [abs_of_nonneg h0, e1] at hq
  set f := float64.fl q with hf
  have hq' : |f - q| ≤ 2 / 9007199254740992 := by linarith
  obtain ⟨q1, q2⟩ := abs_le.1 hq'
  have hnf : 0 ≤ n * f := mul_nonneg hn0 f0
  have hnf1 : (n : ℝ) * f ≤ 2251799813685249 := by
    have : (n : ℝ) * f ≤ n * (1 + 2 / 9007199254740992) := mul_le_mul_of_nonneg_left (by linarith) hn0
    linarith
  have hx := fl64_error (n * f)
  rw [abs_of_nonneg hnf, e1] at hx
  have hx0 : 0 ≤ float64.fl (n * f) := by
    have := fl64_mono hnf
    rwa [z0] at this
  obtain ⟨x1, x2⟩ := abs_le.1 hx
  have d1 : (n : ℝ) * f - n * q ≤ 1 / 2 := by
    have : (n : ℝ) * (f - q) ≤ n * (2 / 9007199254740992) := mul_le_mul_of_nonneg_left q2 hn0
    linarith
  have d2 : -(1 / 2) ≤ (n : ℝ) * f - n * q := by
    have : (n : ℝ) * (-(2 / 9007199254740992)) ≤ n * (f - q) := mul_le_mul_of_nonneg_left q1 hn0
    linarith
  unfold numElements64
  simp only
  rw [if_pos hx0]
  apply floor_close
  rw [abs_lt]
  constructor <;> linarith

end Verif.Rounding
