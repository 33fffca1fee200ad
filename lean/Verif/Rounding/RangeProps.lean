import Verif.Rounding.AngleProps
/-!
# Exactly which angles come out beyond pi: C120
-/

namespace Verif.Rounding

open Quaternion Verif.Motion

theorem fl32_exp {x : ℝ} (h1 : 2 ≤ x) (h2 : x < 4) : float32.exp x = -22 := by
  have h0 : 0 < x := by linarith
  have hlog : Int.log 2 |x| = 1 := by
    rw [abs_of_pos h0]
    apply le_antisymm
    · have : Int.log 2 x < 2 := (Int.lt_zpow_iff_log_lt (by norm_num) h0).1 (by norm_num; linarith)
      omega
    · exact (Int.zpow_le_iff_le_log (by norm_num) h0).1 (by norm_num; linarith)
  unfold Format.exp
  rw [hlog]
  decide

/-- The angle half way between the two numbers of float32 around π, `13176794 * 2⁻²²` and
`13176795 * 2⁻²²`. -/
noncomputable def halfWay : ℝ := 26353589 * 2 ^ (-23 : ℤ)

theorem fl32_below {x : ℝ} (h : x ≤ halfWay) : float32.fl x < Real.pi := by
  have hm := fl32_mono h
  have he : float32.fl halfWay = 13176794 * 2 ^ (-22 : ℤ) := by
    have e : float32.exp halfWay = -22 := fl32_exp (by unfold halfWay; norm_num) (by unfold halfWay; norm_num)
    unfold Format.fl
    rw [e]
    congr 1
    have e2 : halfWay / 2 ^ (-22 : ℤ) = 13176794 + 1 / 2 := by unfold halfWay; norm_num
    have hfl : ⌊(13176794 + 1 / 2 : ℝ)⌋ = 13176794 := by
      rw [Int.floor_eq_iff]; norm_num
    rw [e2]
    unfold roundEven
    rw [hfl]
    norm_num
  rw [he] at hm
  have := Real.pi_gt_d20
  norm_num at this hm ⊢
  linarith

theorem fl32_above {x : ℝ} (h : halfWay < x) (h' : x ≤ Real.pi) :
    float32.fl x = 13176795 * 2 ^ (-22 : ℤ) := by
  have hl := Real.pi_lt_d20
  have hx : 26353589 * 2 ^ (-23 : ℤ) < x := h
  have e : float32.exp x = -22 := fl32_exp (by norm_num at hx; linarith) (by norm_num at hl; linarith)
  unfold Format.fl
  rw [e]
  congr 1
  have h1 : (13176794 : ℝ) + 1 / 2 < x / 2 ^ (-22 : ℤ) := by
    rw [lt_div_iff₀ (by norm_num)]
    norm_num at hx ⊢
    linarith
  have h2 : x / 2 ^ (-22 : ℤ) < (13176795 : ℝ) := by
    rw [div_lt_iff₀ (by norm_num)]
    norm_num at hl ⊢
    linarith
  have hfl : ⌊x / 2 ^ (-22 : ℤ)⌋ = 13176794 := by
    rw [Int.floor_eq_iff]
    push_cast
    constructor <;> linarith
  unfold roundEven
  rw [hfl]
  push_cast
  rw [if_neg (by linarith), if_pos (by linarith)]

/-- **C120, exactly.**  The angles returned are those of the orientations rounded to float32, and one is
in `[-π, π]` if and only if the angle before rounding is not closer to half a turn than the point half
way between the two numbers of float32 around π (which is less than `1.6 · 10⁻⁷` below π). -/
theorem C120_exactly (tol : Tolerance) (qs : List Quat) (l : List ℝ)
    (h : quaternion2z32 tol qs = .ok l) :
    List.Forall₂ (fun q r => (-Real.pi ≤ r ∧ r ≤ Real.pi) ↔ |(toEuler32 tol q).1| ≤ halfWay) qs l := by
  unfold quaternion2z32 toEulerAll32 at h
  split at h
  · cases h
  · rename_i l' hl'
    split at hl'
    swap
    · cases hl'
    cases hl'
    cases h
    rw [List.map_map, List.forall₂_map_right_iff]
    refine List.forall₂_same.2 fun q _ => ?_
    simp only [Function.comp]
    have hm := toEuler32_mem tol q
    generalize (toEuler32 tol q).1 = a at hm ⊢
    have hgt : Real.pi < 13176795 * 2 ^ (-22 : ℤ) := by
      have := Real.pi_lt_d20
      norm_num at this ⊢
      linarith
    have hpi := Real.pi_pos
    have habs : |float32.fl a| = float32.fl |a| := by
      rcases le_total 0 a with h0 | h0
      · rw [abs_of_nonneg h0, abs_of_nonneg (fl32_nonneg h0)]
      · rw [abs_of_nonpos h0, fl_neg, abs_of_nonpos]
        have := fl32_nonneg (neg_nonneg.2 h0)
        rw [fl_neg] at this
        linarith
    rw [← abs_le, habs]
    constructor
    · intro hr
      by_contra hn
      rw [fl32_above (not_le.1 hn) (abs_le.2 ⟨hm.1.le, hm.2⟩)] at hr
      linarith
    · intro hr
      exact (fl32_below hr).le

/-- Half a turn is beyond the half way point, a turn by 3 is not. -/
example : halfWay < Real.pi ∧ 3 ≤ halfWay ∧ Real.pi - 1.6e-7 < halfWay := by
  have h1 := Real.pi_gt_d20
  have h2 := Real.pi_lt_d20
  unfold halfWay
  norm_num at h1 h2 ⊢
  refine ⟨by linarith, by linarith⟩

end Verif.Rounding
