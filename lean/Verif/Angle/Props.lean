import Mathlib.Analysis.Real.Pi.Bounds
import Verif.Angle.Lemmas
/-!
# C88: angles about z and quaternions
-/

namespace Verif.Angle

open Verif.Motion Verif.Dynamics Quaternion

/-- **C88.** `quaternion2z(z2quaternion(θ))` is an array of the same length of angles in `(-π, π]`
that differ from the given ones by whole turns. -/
theorem C88_angles (theta : List ℝ) :
    ∃ l, quaternion2z (z2quaternion theta) = .ok l ∧
      List.Forall₂ (fun t a => (-Real.pi < a ∧ a ≤ Real.pi) ∧
        ∃ k : ℤ, a = t + k * (2 * Real.pi)) theta l := by
  refine ⟨(z2quaternion theta).map (fun q => (toEuler q).1), ?_, ?_⟩
  · unfold quaternion2z toEulerAll
    rw [if_pos]
    · simp
    · intro q hq
      simp only [z2quaternion, List.mem_map] at hq
      obtain ⟨t, -, rfl⟩ := hq
      rw [fromEuler_z, normSq_zRot]
  · unfold z2quaternion
    rw [List.map_map, List.forall₂_map_right_iff]
    refine List.forall₂_same.2 ?_
    intro t _
    refine ⟨toEuler_mem _, ?_⟩
    simp only [Function.comp]
    rw [fromEuler_z, toEuler_zRot_general]
    exact arctan2_sin_cos t

/-- Ten radians come back less three turns or so. -/
example : ∃ l, quaternion2z (z2quaternion [10, -1]) = .ok l ∧ l.length = 2 := by
  obtain ⟨l, h1, h2⟩ := C88_angles [10, -1]
  exact ⟨l, h1, h2.length_eq.symm⟩

/-- **C88.** On angles in `(-π, π]` the round trip is the identity. -/
theorem C88_identity (theta : List ℝ) (h : ∀ t ∈ theta, -Real.pi < t ∧ t ≤ Real.pi) :
    quaternion2z (z2quaternion theta) = .ok theta := by
  obtain ⟨l, hl, hf⟩ := C88_angles theta
  rw [hl]
  congr 1
  clear hl
  induction hf with
  | nil => rfl
  | @cons t a ts as hta _ ih =>
    obtain ⟨⟨h1, h2⟩, k, hk⟩ := hta
    have ht := h t (by simp)
    have hp := Real.pi_pos
    have hk0 : k = 0 := by
      have h3 : (k : ℝ) < 1 := by
        by_contra hc
        push Not at hc
        nlinarith
      have h4 : (-1 : ℝ) < k := by
        by_contra hc
        push Not at hc
        nlinarith
      have h5 : k < 1 := by exact_mod_cast h3
      have h6 : -1 < k := by exact_mod_cast h4
      omega
    rw [ih (fun t' ht' => h t' (by simp [ht']))]
    rw [hk, hk0]
    simp

example : ∀ t ∈ [0, Real.pi, 1, -1], -Real.pi < t ∧ t ≤ Real.pi := by
  have := Real.pi_gt_three
  intro t ht
  simp only [List.mem_cons, List.not_mem_nil, or_false] at ht
  rcases ht with rfl | rfl | rfl | rfl <;> constructor <;> linarith

/-- **C88.** For rotations about z, given by unit quaternions, `z2quaternion(quaternion2z(q))` is
the same rotation: the same quaternion up to sign. -/
theorem C88_quaternions (qs : List Quat)
    (h : ∀ q ∈ qs, normSq q = 1 ∧ q.imI = 0 ∧ q.imJ = 0) :
    ∃ l, quaternion2z qs = .ok l ∧
      List.Forall₂ (fun q q' => q' = q ∨ q' = -q) qs (z2quaternion l) := by
  refine ⟨qs.map (fun q => (toEuler q).1), ?_, ?_⟩
  · unfold quaternion2z toEulerAll
    rw [if_pos (fun q hq => (h q hq).1)]
    simp
  · unfold z2quaternion
    rw [List.map_map, List.forall₂_map_right_iff]
    refine List.forall₂_same.2 ?_
    intro q hq
    obtain ⟨hu, h1, h2⟩ := h q hq
    obtain ⟨θ, rfl⟩ := planar_zRot q hu h1 h2
    simp only [Function.comp]
    rw [fromEuler_z, toEuler_zRot_general]
    obtain ⟨k, hk⟩ := arctan2_sin_cos θ
    rw [hk]
    exact zRot_add_turns θ k

example : ∀ q ∈ [(1 : Quat), zRot 1], normSq q = 1 ∧ q.imI = 0 ∧ q.imJ = 0 := by
  intro q hq
  simp only [List.mem_cons, List.not_mem_nil, or_false] at hq
  rcases hq with rfl | rfl
  · simp
  · exact ⟨normSq_zRot 1, rfl, rfl⟩

/-- **C88.** Anything that is not of unit length is refused. -/
theorem C88_refused (qs : List Quat) (q : Quat) (hq : q ∈ qs) (h : normSq q ≠ 1) :
    quaternion2z qs = .error .valueError := by
  unfold quaternion2z toEulerAll
  rw [if_neg (fun hall => h (hall q hq))]

example : normSq (0 : Quat) ≠ 1 := by simp

end Verif.Angle
