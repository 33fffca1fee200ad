import Verif.Angle.RotProps
/-!
# Exactly which angles `quaternion_rotation` gives right: C148
-/

namespace Verif.Angle

open Verif.Motion Verif.Dynamics Quaternion
open Verif.Order (dot normSq_eq_dot intrinsicDistance intrinsic_eq)

theorem opposite_of_dot {p q : Quat} (hp : dot p p = 1) (hq : dot q q = 1) (h : dot p q ≤ -1) :
    p = -q := by
  unfold dot at hp hq h
  have e1 : (p.re + q.re) ^ 2 + (p.imI + q.imI) ^ 2 + (p.imJ + q.imJ) ^ 2 + (p.imK + q.imK) ^ 2 ≤ 0 := by
    nlinarith
  have s1 := sq_nonneg (p.re + q.re)
  have s2 := sq_nonneg (p.imI + q.imI)
  have s3 := sq_nonneg (p.imJ + q.imJ)
  have s4 := sq_nonneg (p.imK + q.imK)
  have z1 : p.re + q.re = 0 := pow_eq_zero_iff two_ne_zero |>.1 (by linarith)
  have z2 : p.imI + q.imI = 0 := pow_eq_zero_iff two_ne_zero |>.1 (by linarith)
  have z3 : p.imJ + q.imJ = 0 := pow_eq_zero_iff two_ne_zero |>.1 (by linarith)
  have z4 : p.imK + q.imK = 0 := pow_eq_zero_iff two_ne_zero |>.1 (by linarith)
  ext <;> simp <;> linarith

/-- **C148, exactly.**  `quaternion_rotation` gives the angle of the rotation if and only if there is
no rotation, or it is a third of a turn and the quaternions have opposite signs. -/
theorem C148_exactly (p q : Quat) (hp : normSq p = 1) (hq : normSq q = 1) (θ : ℝ)
    (h : TakesTo p q θ) :
    quaternionRotation [p] [q] = .ok [θ] ↔
      θ = 0 ∨ (θ = 2 * Real.pi / 3 ∧
        p.re * q.re + p.imI * q.imI + p.imJ * q.imJ + p.imK * q.imK < 0) := by
  have hpi := Real.pi_pos
  have ev : quaternionRotation [p] [q] = .ok [intrinsicDistance p q] := rfl
  obtain ⟨l, hl, -, hd⟩ := C148_rotation_partial [p] [q] rfl (by simpa using hp) (by simpa using hq)
  obtain ⟨d, hd1, h0, h1, ht⟩ := hd 0 p q rfl rfl
  rw [ev] at hl
  obtain rfl := (Except.ok.inj hl)
  obtain rfl : intrinsicDistance p q = d := by simpa using hd1
  have hθ := (ht θ).1 h
  have hhalf := (C148_half_partial p q hp hq θ).1 h
  rw [ev] at hhalf ⊢
  simp only [Except.ok.injEq, List.cons.injEq, and_true] at hhalf ⊢
  constructor
  · intro he
    rw [he] at hθ hhalf
    rcases min_choice (2 * θ) (2 * Real.pi - 2 * θ) with hm | hm
    · left; linarith
    · right
      have h3 : θ = 2 * Real.pi / 3 := by linarith
      refine ⟨h3, ?_⟩
      by_contra hn
      have := hhalf.2 (Or.inl (not_lt.1 hn))
      linarith
  · rintro (h3 | ⟨h3, hneg⟩)
    · rw [h3] at hθ ⊢
      rcases min_choice (2 * intrinsicDistance p q) (2 * Real.pi - 2 * intrinsicDistance p q) with hm | hm
      · linarith
      · exfalso
        have hd : intrinsicDistance p q = Real.pi := by linarith
        rw [normSq_eq_dot] at hp hq
        rw [intrinsic_eq p q hp hq] at hd
        split at hd
        · linarith
        · rename_i hne
          exact hne (opposite_of_dot hp hq (Real.arccos_eq_pi.1 hd))
    · rcases min_choice (2 * intrinsicDistance p q) (2 * Real.pi - 2 * intrinsicDistance p q) with hm | hm
      · exfalso
        have h5 : intrinsicDistance p q = θ / 2 := by linarith
        rcases hhalf.1 h5 with h6 | h6
        · linarith
        · rw [normSq_eq_dot] at hp hq
          rw [intrinsic_eq p q hp hq, if_pos h6] at h5
          linarith
      · linarith

/-- A turn by 1 is not measured right. -/
example : quaternionRotation [zRot 0] [zRot 1] ≠ .ok [1] := by
  rw [Ne, C148_exactly _ _ (normSq_zRot 0) (normSq_zRot 1) 1 C148_rotation_refuted.1.1]
  have := Real.pi_gt_three
  rintro (h | ⟨h, -⟩)
  · norm_num at h
  · linarith

end Verif.Angle
