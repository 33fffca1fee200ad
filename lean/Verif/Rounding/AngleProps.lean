import Verif.Rounding.AngleLemmas
/-!
# C119 and C120: angles in single precision
-/

namespace Verif.Rounding

open Quaternion Verif.Motion

/-- What `numpy.testing.assert_allclose(result, angle, atol=1e-7)` asks for: the default of `rtol` is
1e-7. -/
def AllClose (result angle : ℝ) : Prop := |result - angle| ≤ 1e-7 + 1e-7 * |angle|

/-- **C119.**  Angles of any size go to float32 quaternions and back: none is refused, and each comes out
as the angle less whole turns that is above `-π` by at least `2⁻¹⁴⁶` and up to `π`, within the tolerance of
`assert_allclose`. -/
theorem C119_roundtrip (tol : Tolerance) (hgim : tol.gimbal < 1) (hunit : 3 * 2 ^ (-23 : ℤ) ≤ tol.unit)
    (theta : List ℝ) :
    ∃ l, quaternion2z32 tol (z2quaternion32 theta) = .ok l ∧
      List.Forall₂ (fun t r => ∀ k : ℤ, -Real.pi + 2 ^ (-146 : ℤ) ≤ t + k * (2 * Real.pi) →
        t + k * (2 * Real.pi) ≤ Real.pi → AllClose r (t + k * (2 * Real.pi))) theta l := by
  refine ⟨(z2quaternion32 theta).map (fun q => float32.fl (toEuler32 tol q).1), ?_, ?_⟩
  · unfold quaternion2z32 toEulerAll32
    rw [if_pos]
    · simp
    · intro q hq
      simp only [z2quaternion32, List.mem_map] at hq
      obtain ⟨t, -, rfl⟩ := hq
      rw [Angle.fromEuler_z]
      have hn := flQ_near t (σ := 1) (Or.inl rfl)
      rw [one_smul] at hn
      rw [planar_norm hn.planar]
      exact stored_unit hn hunit
  · unfold z2quaternion32
    rw [List.map_map, List.forall₂_map_right_iff]
    refine List.forall₂_same.2 ?_
    intro t _ k h1 h2
    simp only [Function.comp]
    rw [Angle.fromEuler_z]
    obtain ⟨a, ha, he⟩ := stored_angle hgim h1 h2
    have hsame : toEuler32 tol (flQ (zRot t)) = toEuler32 tol (flQ (zRot (t + k * (2 * Real.pi)))) := by
      rcases Angle.zRot_add_turns t k with h | h
      · rw [h]
      · rw [h, flQ_neg, toEuler32_neg]
    rw [hsame, ha]
    exact close_of_error he

/-- **C119, as the test has it**: angles in `(-π, π]`, not closer to `-π` than any float64 is. -/
theorem C119_identity (tol : Tolerance) (hgim : tol.gimbal < 1) (hunit : 3 * 2 ^ (-23 : ℤ) ≤ tol.unit)
    (theta : List ℝ) (h : ∀ t ∈ theta, -Real.pi + 2 ^ (-146 : ℤ) ≤ t ∧ t ≤ Real.pi) :
    ∃ l, quaternion2z32 tol (z2quaternion32 theta) = .ok l ∧ List.Forall₂ AllClose l theta := by
  obtain ⟨l, hl, hf⟩ := C119_roundtrip tol hgim hunit theta
  refine ⟨l, hl, List.Forall₂.flip ?_⟩
  clear hl
  induction hf with
  | nil => exact .nil
  | @cons t r ts rs htr _ ih =>
    refine .cons ?_ (ih (fun t' ht' => h t' (by simp [ht'])))
    have := htr 0
    simp only [Int.cast_zero, zero_mul, add_zero] at this
    exact this (h t (by simp)).1 (h t (by simp)).2

example : ∀ t ∈ [0, Real.pi, 1, -1, -3.14], -Real.pi + 2 ^ (-146 : ℤ) ≤ t ∧ t ≤ Real.pi := by
  have h1 := Real.pi_gt_d6
  have h2 := Real.pi_lt_d2
  have h3 : (2 : ℝ) ^ (-146 : ℤ) ≤ 0.001 := by norm_num
  generalize (2 : ℝ) ^ (-146 : ℤ) = x at h3 ⊢
  intro t ht
  simp only [List.mem_cons, List.not_mem_nil, or_false] at ht
  rcases ht with rfl | rfl | rfl | rfl | rfl <;> constructor <;> linarith

/-- The tolerances of rowan. -/
example : (3 : ℝ) * 2 ^ (-23 : ℤ) ≤ (⟨1e-5 + 1e-8, 1e-3⟩ : Tolerance).unit ∧
    (⟨1e-5 + 1e-8, 1e-3⟩ : Tolerance).gimbal < 1 := by
  constructor <;> norm_num

/-- **C120, the property as stated**: the angles returned by `quaternion2z` are in `[-π, π]`. -/
def InRange (tol : Tolerance) : Prop :=
  ∀ qs l, quaternion2z32 tol qs = .ok l → ∀ r ∈ l, -Real.pi ≤ r ∧ r ≤ Real.pi

/-- **C120, what holds**: they are between the numbers of float32 nearest to `-π` and `π`, which are
less than `8.8 · 10⁻⁸` outside of that range. -/
theorem C120_range_partial (tol : Tolerance) (qs : List Quat) (l : List ℝ)
    (h : quaternion2z32 tol qs = .ok l) : ∀ r ∈ l, |r| ≤ 13176795 * 2 ^ (-22 : ℤ) ∧
      |r| < Real.pi + 8.8e-8 := by
  unfold quaternion2z32 toEulerAll32 at h
  split at h
  · cases h
  · rename_i l' hl'
    split at hl'
    · cases hl'
      cases h
      intro r hr
      simp only [List.map_map, List.mem_map, Function.comp] at hr
      obtain ⟨q, -, rfl⟩ := hr
      have hm := toEuler32_mem tol q
      have b1 := fl32_mono hm.1.le
      have b2 := fl32_mono hm.2
      rw [fl_neg, fl32_pi] at b1
      rw [fl32_pi] at b2
      have hb : |float32.fl (toEuler32 tol q).1| ≤ 13176795 * 2 ^ (-22 : ℤ) := abs_le.2 ⟨b1, b2⟩
      refine ⟨hb, hb.trans_lt ?_⟩
      have := Real.pi_gt_d20
      norm_num at this ⊢
      linarith
    · cases hl'

/-- **C120 is false of the code**, for all tolerances: half a turn about z comes out as
the number of float32 nearest to `π`, which is larger than `π`. -/
theorem C120_refuted (tol : Tolerance) (hgim : tol.gimbal < 1) (hunit : 0 ≤ tol.unit) : ¬ InRange tol := by
  intro h
  set q : Quat := zRot Real.pi with hq
  have hC : toC q = Complex.I := by
    apply Complex.ext
    · exact Real.cos_pi_div_two
    · exact Real.sin_pi_div_two
  have heuler : toEuler32 tol q = (Real.pi, 0, 0) := by
    rw [toEuler32_planar hgim ⟨rfl, rfl⟩ (by rw [hC]; exact Complex.I_ne_zero)]
    have e1 : (toC q ^ 2).re = -1 := by rw [hC]; simp
    have e2 : (toC q ^ 2).im = 0 := by rw [hC]; simp
    have e3 : (⟨clip1 (-1), clip1 0⟩ : ℂ) = -1 := by
      apply Complex.ext <;> simp [clip1]
    rw [e1, e2, e3, Complex.arg_neg_one]
  have hok : quaternion2z32 tol [q] = .ok [float32.fl Real.pi] := by
    unfold quaternion2z32 toEulerAll32
    rw [if_pos]
    · simp [heuler]
    · intro q' hq'
      rw [List.mem_singleton.1 hq', hq, normSq_zRot, Real.sqrt_one, sub_self, abs_zero]
      exact hunit
  have := (h _ _ hok (float32.fl Real.pi) (by simp)).2
  rw [fl32_pi] at this
  have h2 := Real.pi_lt_d20
  norm_num at this h2
  linarith

example : ∃ qs l, quaternion2z32 ⟨1e-5 + 1e-8, 1e-3⟩ qs = .ok l ∧ l.length = 3 := by
  obtain ⟨l, hl, hf⟩ := C119_roundtrip ⟨1e-5 + 1e-8, 1e-3⟩ (by norm_num) (by norm_num) [1, 2, 3]
  exact ⟨_, l, hl, by rw [← hf.length_eq]; rfl⟩

end Verif.Rounding
