import Verif.Molecule.ShapeProps
/-!
# Exactly which trimers have the same shape: C174
-/

namespace Verif.Molecule

open Verif.Motion (V3)

theorem same_direction {x y : ℝ} :
    (Real.sin x = Real.sin y ∧ Real.cos x = Real.cos y) ↔ ∃ k : ℤ, x = y + k * (2 * Real.pi) := by
  constructor
  · rintro ⟨h1, h2⟩
    have h : Real.cos (x - y) = 1 := by
      rw [Real.cos_sub, h1, h2]
      have := Real.sin_sq_add_cos_sq y
      nlinarith
    obtain ⟨k, hk⟩ := (Real.cos_eq_one_iff _).1 h
    exact ⟨k, by linarith⟩
  · rintro ⟨k, rfl⟩
    exact ⟨Real.sin_add_int_mul_two_pi y k, Real.cos_add_int_mul_two_pi y k⟩

theorem half_deg {a b : ℝ} {k : ℤ} :
    deg2rad a / 2 = deg2rad b / 2 + k * (2 * Real.pi) ↔ a = b + 720 * k := by
  have hpi := Real.pi_pos
  unfold deg2rad
  constructor
  · intro h
    have : (a - b - 720 * k) * Real.pi = 0 := by linarith
    rcases mul_eq_zero.1 this with h | h
    · linarith
    · exact absurd h hpi.ne'
  · rintro rfl
    ring

/-- **C174, exactly.**  Two trimers have the same shape if and only if the radii are the same, and either
both distances are 0, or the distances are the same and the angles differ by a multiple of 720 degrees, or
the distances are opposite and the angles differ by 360 degrees and such a multiple.  They are equal if
and only if all three are the same. -/
theorem C174_exactly {r d a r' d' a' : ℝ} {m m' : Mol}
    (hm : trimer (.float r) (.float d) (.float a) = .ok m)
    (hm' : trimer (.float r') (.float d') (.float a') = .ok m') :
    (SameShape m m' ↔ r = r' ∧ ((d = 0 ∧ d' = 0) ∨ (d = d' ∧ ∃ k : ℤ, a = a' + 720 * k) ∨
      (d = -d' ∧ ∃ k : ℤ, a = a' + 360 + 720 * k))) ∧
    (pyEq m m' = .ok true ↔ r = r' ∧ d = d' ∧ a = a') := by
  obtain ⟨-, -, -, rfl⟩ := trimer_ok hm
  obtain ⟨-, -, -, rfl⟩ := trimer_ok hm'
  have hk (x : ℝ) : Dict.setdefault [("A", (1 : ℝ)), ("B", x)] "A" 1 = [("A", 1), ("B", x)] := rfl
  have hflip : ∀ b : ℝ, Real.sin (deg2rad (b + 360) / 2) = -Real.sin (deg2rad b / 2) ∧
      Real.cos (deg2rad (b + 360) / 2) = -Real.cos (deg2rad b / 2) := by
    intro b
    have : deg2rad (b + 360) / 2 = deg2rad b / 2 + Real.pi := by unfold deg2rad; ring
    rw [this, Real.sin_add_pi, Real.cos_add_pi]
    exact ⟨rfl, rfl⟩
  constructor
  · constructor
    · rintro ⟨-, hp, hr⟩
      simp only [initMolecule, Arg.toReal, Option.getD_some] at hp hr
      obtain ⟨h1, h2⟩ := trimer_differences hp
      have e : r = r' := by
        rw [hk, hk] at hr
        simpa using hr
      refine ⟨e, ?_⟩
      have s1 := Real.sin_sq_add_cos_sq (deg2rad a / 2)
      have s2 := Real.sin_sq_add_cos_sq (deg2rad a' / 2)
      have hsq : d ^ 2 = d' ^ 2 := by
        calc d ^ 2 = d ^ 2 * (Real.sin (deg2rad a / 2) ^ 2 + Real.cos (deg2rad a / 2) ^ 2) := by
              rw [s1, mul_one]
          _ = (d * Real.sin (deg2rad a / 2)) ^ 2 + (d * Real.cos (deg2rad a / 2)) ^ 2 := by ring
          _ = d' ^ 2 * (Real.sin (deg2rad a' / 2) ^ 2 + Real.cos (deg2rad a' / 2) ^ 2) := by
              rw [h1, h2]; ring
          _ = _ := by rw [s2, mul_one]
      by_cases h0 : d' = 0
      · left
        rw [h0] at hsq
        exact ⟨by simpa using hsq, h0⟩
      · right
        rcases sq_eq_sq_iff_eq_or_eq_neg.1 hsq with h | h
        · left
          refine ⟨h, ?_⟩
          rw [h] at h1 h2
          obtain ⟨k, hk⟩ := same_direction.1 ⟨mul_left_cancel₀ h0 h1, mul_left_cancel₀ h0 h2⟩
          exact ⟨k, half_deg.1 hk⟩
        · right
          refine ⟨h, ?_⟩
          rw [h] at h1 h2
          obtain ⟨f1, f2⟩ := hflip a'
          have g1 : Real.sin (deg2rad a / 2) = Real.sin (deg2rad (a' + 360) / 2) := by
            rw [f1]
            apply mul_left_cancel₀ h0
            linarith
          have g2 : Real.cos (deg2rad a / 2) = Real.cos (deg2rad (a' + 360) / 2) := by
            rw [f2]
            apply mul_left_cancel₀ h0
            linarith
          obtain ⟨k, hk⟩ := same_direction.1 ⟨g1, g2⟩
          exact ⟨k, half_deg.1 hk⟩
    · rintro ⟨rfl, h⟩
      have hpos : trimerPositions d a = trimerPositions d' a' := by
        have hs : d * Real.sin (deg2rad a / 2) = d' * Real.sin (deg2rad a' / 2) ∧
            d * Real.cos (deg2rad a / 2) = d' * Real.cos (deg2rad a' / 2) := by
          rcases h with ⟨rfl, rfl⟩ | ⟨rfl, k, hk⟩ | ⟨rfl, k, hk⟩
          · simp
          · obtain ⟨h1, h2⟩ := same_direction.2 ⟨k, half_deg.2 hk⟩
            rw [h1, h2]
            exact ⟨rfl, rfl⟩
          · obtain ⟨h1, h2⟩ := same_direction.2 ⟨k, half_deg.2 hk⟩
            obtain ⟨f1, f2⟩ := hflip a'
            rw [h1, h2, f1, f2]
            constructor <;> ring
        simp only [trimerPositions, neg_mul, hs.1, hs.2]
      refine ⟨rfl, ?_, rfl⟩
      simp only [initMolecule, Arg.toReal, Option.getD_some, hpos]
  · by_cases h1 : r = r' <;> by_cases h2 : d = d' <;> by_cases h3 : a = a' <;>
      simp [pyEq, eqMethod, initMolecule, Cls.sub, Arg.attr, Attr.eq, andThen, h1, h2, h3]

/-- A trimer of distance 1 and angle 120 and one of distance -1 and angle 480 have the same shape. -/
example {m m' : Mol} (hm : trimer (.float 1) (.float 1) (.float 480) = .ok m)
    (hm' : trimer (.float 1) (.float (-1)) (.float 120) = .ok m') :
    SameShape m m' ∧ pyEq m m' ≠ .ok true := by
  obtain ⟨h1, h2⟩ := C174_exactly hm hm'
  refine ⟨h1.2 ⟨rfl, Or.inr (Or.inr ⟨by norm_num, 0, by norm_num⟩)⟩, ?_⟩
  rw [Ne, h2]
  norm_num

end Verif.Molecule
