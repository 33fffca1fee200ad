import Verif.Angle.RotLemmas
/-!
# C148: the angles of rotations
-/

namespace Verif.Angle

open Verif.Motion Verif.Dynamics Quaternion
open Verif.Order (dot dot_comm normSq_eq_dot intrinsicDistance intrinsic_eq intrinsic_zRot)

/-- **C148**, partial (in full `RotationsMeasured`): `quaternion_rotation` of arrays of the same length gives
numbers between 0 and π.  They are not the angles of the rotations: the angle is twice the number, or what is left
of a whole turn. -/
theorem C148_rotation_partial (initial final : List Quat) (hl : initial.length = final.length)
    (hi : ∀ p ∈ initial, normSq p = 1) (hf : ∀ q ∈ final, normSq q = 1) :
    ∃ l, quaternionRotation initial final = .ok l ∧ l.length = initial.length ∧
      ∀ (i : ℕ) p q, initial[i]? = some p → final[i]? = some q →
        ∃ d, l[i]? = some d ∧ 0 ≤ d ∧ d ≤ Real.pi ∧
          ∀ θ, TakesTo p q θ ↔ θ = min (2 * d) (2 * Real.pi - 2 * d) := by
  refine ⟨_, bcast_same _ _ _ hl, by simp [hl], ?_⟩
  intro i p q hp hq
  have hp1 := hi p (List.mem_of_getElem? hp)
  have hq1 := hf q (List.mem_of_getElem? hq)
  have h0 := dist_nonneg p q
  have h1 := dist_le p q hp1 hq1
  refine ⟨intrinsicDistance p q, ?_, h0, h1, ?_⟩
  · rw [List.getElem?_zipWith, hp, hq]
  · intro θ
    have hu : normSq (q * p⁻¹) = 1 := by rw [map_mul, map_inv₀, hp1, hq1]; norm_num
    have hc : Real.cos (2 * intrinsicDistance p q) = 2 * (q * p⁻¹).re ^ 2 - 1 := by
      rw [normSq_eq_dot] at hp1 hq1
      rw [Order.cos_intrinsic p q hp1 hq1, Order.re_div q p hp1, dot_comm]
    rw [takesTo_iff p q hp1, turnsBy_rotate _ hu, ← hc]
    constructor
    · rintro ⟨h2, h3, h4⟩
      exact fold_angle (by linarith) (by linarith) h2 h3 h4
    · rintro rfl
      refine ⟨le_min (by linarith) (by linarith), ?_, ?_⟩
      · rcases le_total (2 * intrinsicDistance p q) Real.pi with h | h
        · exact (min_le_left _ _).trans h
        · exact (min_le_right _ _).trans (by linarith)
      · rcases min_choice (2 * intrinsicDistance p q) (2 * Real.pi - 2 * intrinsicDistance p q) with h | h
        · rw [h]
        · rw [h, Real.cos_two_pi_sub]

/-- **C148**, partial: `quaternion_angle` gives numbers between 0 and 2π; the angle of the rotation is the number
or what is left of a whole turn. -/
theorem C148_angle_partial (qs : List Quat) (h : ∀ q ∈ qs, normSq q = 1) :
    List.Forall₂ (fun q a => 0 ≤ a ∧ a ≤ 2 * Real.pi ∧
      ∀ θ, TurnsBy (rotate q) θ ↔ θ = min a (2 * Real.pi - a)) qs (quaternionAngle qs) := by
  unfold quaternionAngle
  rw [List.forall₂_map_right_iff]
  refine List.forall₂_same.2 fun q hq => ?_
  have hq1 := h q hq
  have h0 := dist_nonneg q 1
  have h1 := dist_le q 1 hq1 (by simp)
  rw [log_eq]
  refine ⟨by linarith, by linarith, fun θ => ?_⟩
  have hc : Real.cos (2 * intrinsicDistance q 1) = 2 * q.re ^ 2 - 1 := by
    rw [normSq_eq_dot] at hq1
    rw [Order.cos_intrinsic q 1 hq1 (by simp [dot])]
    simp [dot]
  rw [turnsBy_rotate q hq1, ← hc]
  constructor
  · rintro ⟨h2, h3, h4⟩
    exact fold_angle (by linarith) (by linarith) h2 h3 h4
  · rintro rfl
    refine ⟨le_min (by linarith) (by linarith), ?_, ?_⟩
    · rcases le_total (2 * intrinsicDistance q 1) Real.pi with h | h
      · exact (min_le_left _ _).trans h
      · exact (min_le_right _ _).trans (by linarith)
    · rcases min_choice (2 * intrinsicDistance q 1) (2 * Real.pi - 2 * intrinsicDistance q 1) with h | h
      · rw [h]
      · rw [h, Real.cos_two_pi_sub]

/-- Two unit quaternions that are not about z. -/
example : ∀ q ∈ [qy 1, qx 2], normSq q = 1 := by
  have h1 : normSq (qy 1) = 1 := by
    rw [normSq_def']
    simp [qy]
  have h2 : normSq (qx 2) = 1 := by
    rw [normSq_def']
    simp [qx]
  simp [h1, h2]

/-- **C148**, partial: the number given by `quaternion_rotation` is half the angle exactly when the quaternions are
at most a right angle apart, or opposite; `quaternion_angle` gives the angle exactly when the first entry is not
negative, or the quaternion is -1. -/
theorem C148_half_partial (p q : Quat) (hp : normSq p = 1) (hq : normSq q = 1) (θ : ℝ) :
    (TakesTo p q θ → (quaternionRotation [p] [q] = .ok [θ / 2] ↔
      0 ≤ p.re * q.re + p.imI * q.imI + p.imJ * q.imJ + p.imK * q.imK ∨ p = -q)) ∧
    (TurnsBy (rotate q) θ → (quaternionAngle [q] = [θ] ↔ 0 ≤ q.re ∨ q = -1)) := by
  have key : ∀ p q : Quat, normSq p = 1 → normSq q = 1 →
      (2 * intrinsicDistance p q = min (2 * intrinsicDistance p q) (2 * Real.pi - 2 * intrinsicDistance p q) ↔
        0 ≤ dot p q ∨ p = -q) := by
    intro p q hp hq
    rw [normSq_eq_dot] at hp hq
    rw [eq_comm, min_eq_left_iff, intrinsic_eq p q hp hq]
    split
    · rename_i h
      simp only [h, or_true, iff_true]
      have := Real.pi_pos
      linarith
    · rename_i h
      rw [or_iff_left h, ← Real.arccos_le_pi_div_two]
      constructor <;> intro h <;> linarith
  constructor
  · intro ht
    obtain ⟨l, h1, -, h3⟩ := C148_rotation_partial [p] [q] rfl (by simpa using hp) (by simpa using hq)
    obtain ⟨d, h4, -, -, h5⟩ := h3 0 p q rfl rfl
    have hd : d = intrinsicDistance p q := by
      have : l = [intrinsicDistance p q] := by
        have h6 : quaternionRotation [p] [q] = .ok [intrinsicDistance p q] := rfl
        rw [h6] at h1
        exact (Except.ok.inj h1).symm
      rw [this] at h4
      exact (Option.some.inj h4).symm
    subst hd
    have hθ := (h5 θ).1 ht
    have h6 : quaternionRotation [p] [q] = .ok [intrinsicDistance p q] := rfl
    rw [h6]
    have := key p q hp hq
    rw [← hθ] at this
    rw [show p.re * q.re + p.imI * q.imI + p.imJ * q.imJ + p.imK * q.imK = dot p q from rfl, ← this]
    constructor
    · intro h
      have : intrinsicDistance p q = θ / 2 := by simpa using h
      linarith
    · intro h
      rw [show intrinsicDistance p q = θ / 2 by linarith]
  · intro ht
    have h1 := C148_angle_partial [q] (by simpa using hq)
    have h6 : quaternionAngle [q] = [2 * intrinsicDistance q 1] := by
      simp [quaternionAngle, log_eq]
    rw [h6] at h1 ⊢
    have hθ := ((List.forall₂_cons.1 h1).1.2.2 θ).1 ht
    have := key q 1 hq (by simp)
    rw [← hθ] at this
    rw [show dot q 1 = q.re by simp [dot]] at this
    rw [← this]
    simp

/-- The hypotheses of `C148_half_partial`, a turn by 1 about z seen by quaternions of opposite sign. -/
example : TakesTo (zRot 0) (-zRot 1) 1 ∧ TakesTo (zRot 0) (zRot 1) 1 ∧ TurnsBy (rotate (-zRot 1)) 1 := by
  have hpi := Real.pi_gt_three
  have hc : Real.cos 1 = 2 * Real.cos (1 / 2) ^ 2 - 1 := by
    rw [← Real.cos_two_mul]; norm_num
  have h1 : normSq (zRot 1) = 1 := normSq_zRot 1
  have h2 : normSq (-zRot 1) = 1 := by rw [normSq_neg]; exact h1
  have h0 : normSq (zRot 0) = 1 := normSq_zRot 0
  refine ⟨?_, ?_, ?_⟩
  · rw [takesTo_iff _ _ h0, zRot_zero, inv_one, mul_one, turnsBy_rotate _ h2]
    exact ⟨by norm_num, by linarith, by simpa using hc⟩
  · rw [takesTo_iff _ _ h0, zRot_zero, inv_one, mul_one, turnsBy_rotate _ h1]
    exact ⟨by norm_num, by linarith, by simpa using hc⟩
  · rw [turnsBy_rotate _ h2]
    exact ⟨by norm_num, by linarith, by simpa using hc⟩

/-- **C148**, partial: for molecules in the plane, with orientations made by `z2quaternion`, `quaternion_rotation`
gives half the difference of the angles and `quaternion_angle` the size of the angle, as long as these are less than
a whole turn. -/
theorem C148_planar_partial (a b : ℝ) (h : |a - b| < 2 * Real.pi) :
    quaternionRotation (z2quaternion [a]) (z2quaternion [b]) = .ok [|a - b| / 2] ∧
    (|a| < 2 * Real.pi → quaternionAngle (z2quaternion [a]) = [|a|]) := by
  have hz : ∀ t, z2quaternion [t] = [zRot t] := fun t => by simp [z2quaternion, fromEuler_z]
  have hd : ∀ s t : ℝ, |s - t| < 2 * Real.pi → 2 * intrinsicDistance (zRot s) (zRot t) = |s - t| :=
    fun s t hst => intrinsic_zRot s t hst
  constructor
  · rw [hz, hz]
    have h6 : quaternionRotation [zRot a] [zRot b] = .ok [intrinsicDistance (zRot a) (zRot b)] := rfl
    rw [h6, show intrinsicDistance (zRot a) (zRot b) = |a - b| / 2 by rw [← hd a b h]; ring]
  · intro ha
    rw [hz]
    have := hd a 0 (by simpa using ha)
    rw [zRot_zero, sub_zero] at this
    simp [quaternionAngle, log_eq, this]

/-- Half a turn one way and almost half a turn the other. -/
example : |(3 : ℝ) - (-3)| < 2 * Real.pi ∧ |(3 : ℝ)| < 2 * Real.pi := by
  have := Real.pi_gt_three
  constructor <;> rw [abs_of_pos (by norm_num)] <;> linarith

/-- **C148.** What is right about `quaternion_rotation` as a measure of distance: it does not depend on the order of
the orientations, it is 0 exactly for equal rotations, it does not change when both orientations are turned together,
and going by way of a third orientation is not shorter, unless this involves opposite quaternions. -/
theorem C148_distance (p q r g : Quat) (hp : normSq p = 1) (hq : normSq q = 1) (hr : normSq r = 1)
    (hg : normSq g = 1) :
    ∃ pq qr pr, quaternionRotation [p] [q] = .ok [pq] ∧ quaternionRotation [q] [r] = .ok [qr] ∧
      quaternionRotation [p] [r] = .ok [pr] ∧ quaternionRotation [q] [p] = .ok [pq] ∧
      quaternionRotation [g * p] [g * q] = .ok [pq] ∧ quaternionRotation [p * g] [q * g] = .ok [pq] ∧
      (pq = 0 ↔ ∀ v, rotate p v = rotate q v) ∧
      (p ≠ -q → q ≠ -r → pr ≤ pq + qr) := by
  have ev : ∀ a b : Quat, quaternionRotation [a] [b] = .ok [intrinsicDistance a b] := fun _ _ => rfl
  have hp' := hp; have hq' := hq; have hg' := hg
  rw [normSq_eq_dot] at hp' hq' hg'
  have hg0 : g ≠ 0 := by rintro rfl; simp at hg
  have hp0 : p ≠ 0 := by rintro rfl; simp at hp
  refine ⟨_, _, _, ev _ _, ev _ _, ev _ _, ?_, ?_, ?_, ?_, ?_⟩
  · rw [ev, dist_comm' q p hq hp]
  · rw [ev, Order.intrinsic_congr hp' hq' (by rw [Order.dot_mul_left, hg', hp', one_mul])
      (by rw [Order.dot_mul_left, hg', hq', one_mul]) (by rw [Order.dot_mul_left, hg', one_mul])
      (by rw [show -(g * q) = g * (-q) from (mul_neg g q).symm]; exact mul_right_inj' hg0)]
  · rw [ev, Order.intrinsic_congr hp' hq' (by rw [Order.dot_mul_right, hg', hp', one_mul])
      (by rw [Order.dot_mul_right, hg', hq', one_mul]) (by rw [Order.dot_mul_right, hg', one_mul])
      (by rw [show -(q * g) = -q * g from (neg_mul q g).symm]; exact mul_left_inj' hg0)]
  · have h1 : intrinsicDistance p q = 0 ↔ p = q ∨ p = -q := by
      rw [intrinsic_eq p q hp' hq']
      split
      · rename_i h; simp [h]
      · rename_i h
        rw [or_iff_left h, Real.arccos_eq_zero]
        constructor
        · intro h1
          have h2 := Order.dot_sq_le_one p q hp' hq'
          rcases (Order.dot_one_iff p q hp' hq').1 (le_antisymm h2 (by nlinarith)) with h3 | h3
          · exact h3
          · exact absurd h3 h
        · rintro rfl; rw [hp']
    rw [h1]
    constructor
    · rintro (rfl | rfl) v
      · rfl
      · obtain ⟨x, y, z⟩ := v
        rw [rotate_entries, rotate_entries]
        simp
    · intro h
      have h2 : TurnsBy (rotate (q * p⁻¹)) 0 := by
        refine ⟨le_rfl, Real.pi_pos.le, ?_⟩
        have : ∀ v, rotate (q * p⁻¹) v = v := by
          intro v
          rw [rotate_mul, ← h, ← rotate_mul, mul_inv_cancel₀ hp0, rotate_one']
        rw [this, this, this, Real.cos_zero]
        norm_num
      have hu : normSq (q * p⁻¹) = 1 := by rw [map_mul, map_inv₀, hp, hq]; norm_num
      have h3 := ((turnsBy_rotate _ hu 0).1 h2).2.2
      rw [Real.cos_zero, Order.re_div q p hp', dot_comm] at h3
      exact (Order.dot_one_iff p q hp' hq').1 (by linarith)
  · intro h1 h2
    rw [dist_angle p q hp hq h1, dist_angle q r hq hr h2]
    exact (dist_le_angle p r hp hr).trans (InnerProductGeometry.angle_le_angle_add_angle p q r)

/-- The hypotheses of `C148_distance`. -/
example : normSq (qy 1) = 1 ∧ normSq (1 : Quat) = 1 ∧ qy 1 ≠ -1 ∧ (1 : Quat) ≠ -qy 1 := by
  have h0 : 0 < Real.sin (1 / 2) :=
    Real.sin_pos_of_pos_of_lt_pi (by norm_num) (by have := Real.pi_gt_three; linarith)
  refine ⟨by rw [normSq_def']; simp [qy], by simp, ?_, ?_⟩
  · intro h
    have h1 : Real.sin (1 / 2) = (-1 : Quat).imJ := congrArg QuaternionAlgebra.imJ h
    simp at h1
    norm_num at h0
    linarith
  · intro h
    have h1 : (1 : Quat).imJ = -Real.sin (1 / 2) := congrArg QuaternionAlgebra.imJ h
    simp at h1
    norm_num at h0
    linarith

/-- C148 in full is false for `quaternion_rotation`: a turn by 1 is measured as 1/2, or as π - 1/2. -/
theorem C148_rotation_refuted :
    (TakesTo (zRot 0) (zRot 1) 1 ∧ quaternionRotation [zRot 0] [zRot 1] = .ok [1 / 2] ∧
      TakesTo (zRot 0) (-zRot 1) 1 ∧ quaternionRotation [zRot 0] [-zRot 1] = .ok [Real.pi - 1 / 2]) ∧
    ¬ RotationsMeasured := by
  have hpi := Real.pi_gt_three
  have hc : Real.cos 1 = 2 * Real.cos (1 / 2) ^ 2 - 1 := by
    rw [← Real.cos_two_mul]; norm_num
  have h1 : normSq (zRot 1) = 1 := normSq_zRot 1
  have h2 : normSq (-zRot 1) = 1 := by rw [normSq_neg]; exact h1
  have h0 : normSq (zRot 0) = 1 := normSq_zRot 0
  have t1 : TakesTo (zRot 0) (zRot 1) 1 := by
    rw [takesTo_iff _ _ h0, zRot_zero, inv_one, mul_one, turnsBy_rotate _ h1]
    exact ⟨by norm_num, by linarith, by simpa using hc⟩
  have t2 : TakesTo (zRot 0) (-zRot 1) 1 := by
    rw [takesTo_iff _ _ h0, zRot_zero, inv_one, mul_one, turnsBy_rotate _ h2]
    exact ⟨by norm_num, by linarith, by simpa using hc⟩
  have d1 : intrinsicDistance (zRot 0) (zRot 1) = 1 / 2 := by
    have : 2 * intrinsicDistance (zRot 0) (zRot 1) = |(0 : ℝ) - 1| :=
      intrinsic_zRot 0 1 (by norm_num; linarith)
    norm_num at this
    linarith
  have d2 : intrinsicDistance (zRot 0) (-zRot 1) = Real.pi - 1 / 2 := by
    have hd : dot (-zRot 1) (zRot 0) = -Real.cos (1 / 2) := by
      rw [Order.dot_neg_left, zRot_zero]; simp [dot]
    have hcp : Real.cos (1 / 2) > 0 := Real.cos_pos_of_mem_Ioo ⟨by linarith, by linarith⟩
    have hne : -zRot 1 ≠ -zRot 0 := by
      intro h
      have h3 := congrArg QuaternionAlgebra.imK (neg_inj.1 h)
      rw [zRot_imK, zRot_imK] at h3
      have := Real.sin_pos_of_pos_of_lt_pi (x := 1 / 2) (by norm_num) (by linarith)
      norm_num at h3
      norm_num at this
      linarith
    rw [dist_comm' _ _ h0 h2]
    rw [normSq_eq_dot] at h0 h2
    rw [intrinsic_eq _ _ h2 h0, if_neg hne, hd, Real.arccos_neg,
      Real.arccos_cos (by norm_num) (by linarith)]
  have r1 : quaternionRotation [zRot 0] [zRot 1] = .ok [1 / 2] := by
    rw [← d1]; rfl
  have r2 : quaternionRotation [zRot 0] [-zRot 1] = .ok [Real.pi - 1 / 2] := by
    rw [← d2]; rfl
  refine ⟨⟨t1, r1, t2, r2⟩, fun h => ?_⟩
  have := h.1 _ _ h0 h1 1 t1
  rw [r1] at this
  norm_num at this

/-- C148 in full is false for `quaternion_angle`: the quaternion of a turn by 6 about z turns by 2π - 6, and is given
the angle 6. -/
theorem C148_angle_refuted :
    normSq (zRot 6) = 1 ∧ TurnsBy (rotate (zRot 6)) (2 * Real.pi - 6) ∧ quaternionAngle [zRot 6] = [6] ∧
      ¬ ∃ θ, TurnsBy (rotate (zRot 6)) θ ∧ quaternionAngle [zRot 6] = [θ] := by
  have hpi := Real.pi_gt_three
  have hpi' := Real.pi_lt_d2
  have h6 : quaternionAngle [zRot 6] = [6] := by
    have h := (C148_planar_partial 6 6 (by simp [Real.pi_pos])).2 (by
      rw [abs_of_pos (by norm_num)]; linarith)
    rw [abs_of_pos (by norm_num : (0 : ℝ) < 6)] at h
    have hz : z2quaternion [6] = [zRot 6] := by simp [z2quaternion, fromEuler_z]
    rwa [hz] at h
  refine ⟨normSq_zRot 6, ?_, h6, ?_⟩
  · rw [turnsBy_rotate _ (normSq_zRot 6)]
    refine ⟨by linarith, by linarith, ?_⟩
    rw [Real.cos_two_pi_sub, zRot_re, ← Real.cos_two_mul]
    norm_num
  · rintro ⟨θ, ht, h⟩
    rw [h6] at h
    have : (6 : ℝ) = θ := by simpa using h
    have h2 := ht.2.1
    linarith

end Verif.Angle
