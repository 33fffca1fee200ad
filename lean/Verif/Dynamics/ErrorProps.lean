import Verif.Dynamics.CloseLemmas
/-!
# C38, C166: which exceptions the quantities raise when they cannot be worked out
-/

namespace Verif.Dynamics

open Verif.Motion Quaternion

/-- **C38, the scattering function without wave number.**  `compute_isf` raises an exception exactly
when no wave vectors were made, and then an AttributeError. -/
theorem C38_isf_missing (d : Dyn) (e : PyErr) :
    d.isf = .error e ↔ d.waveVector = none ∧ e = .attributeError := by
  unfold Dyn.isf
  rcases d.waveVector with _ | ws
  · simp [eq_comm]
  · simp

/-- Without wave vectors. -/
example (T : Tracked) : (Dyn.mk none T 0 1 none none).isf = .error .attributeError :=
  (C38_isf_missing _ _).2 ⟨rfl, rfl⟩

/-- **C38, the structural relaxation without wave number or molecule.**  `compute_struct_relax`
raises a ValueError without wave number; with one other than zero and without molecule, an
AttributeError; and with a wave number of zero a ZeroDivisionError. -/
theorem C38_struct_missing (d : Dyn) :
    (d.waveNumber = none → d.structRelax = .error .valueError) ∧
      (d.waveNumber = some 0 → d.structRelax = .error .zeroDivisionError) ∧
      (∀ k, d.waveNumber = some k → k ≠ 0 → d.molVector = none →
        d.structRelax = .error .attributeError) := by
  refine ⟨fun h => ?_, fun h => ?_, fun k h hk hm => ?_⟩
  · unfold Dyn.structRelax Dyn.distance
    rw [h]
  · unfold Dyn.structRelax Dyn.distance
    rw [h]
    simp
  · unfold Dyn.structRelax Dyn.distance
    rw [h]
    simp only [if_neg hk]
    rw [hm]

/-- A wave number without molecule. -/
example (T : Tracked) : (Dyn.mk none T 0 1 (some 2) (some [])).structRelax =
    .error .attributeError :=
  (C38_struct_missing _).2.2 2 rfl (by norm_num) rfl

theorem rotateVectorsTol_error {o : List Quat} {q : Quat} (hq : q ∈ o)
    (h : 1 / 10 ^ 8 + 1 / 10 ^ 5 < |Real.sqrt (normSq q) - 1|) (p : V3) :
    rotateVectorsTol o p = .error .valueError := by
  unfold rotateVectorsTol
  rw [if_neg]
  intro hall
  have := hall q hq
  rw [abs_one, mul_one] at this
  exact absurd this (not_le.2 h)

/-- **C166, orientations that are no rotations.**  When some component of some orientation is further
from zero than 1e-8, and the length of some orientation further from one than 1.001e-5, a molecule
with particles gives a ValueError, and the array is kept. -/
theorem C166_refused (position : List V3) {o : List Quat} {q r : Quat} (hq : q ∈ o) (hr : r ∈ o)
    (h : 1 / 10 ^ 8 + 1 / 10 ^ 5 < |Real.sqrt (normSq q) - 1|)
    (hc : 1 / 10 ^ 8 < |r.re| ∨ 1 / 10 ^ 8 < |r.imI| ∨ 1 / 10 ^ 8 < |r.imJ| ∨ 1 / 10 ^ 8 < |r.imK|)
    (v : List V3) :
    molecule2particlesRun position (.array o) v = (.error .valueError, .array o) := by
  have hn : ¬ allCloseZero o := by
    intro ha
    obtain ⟨h1, h2, h3, h4⟩ := ha r hr
    simp only [closeZero, abs_zero, mul_zero, add_zero] at h1 h2 h3 h4
    rcases hc with hc | hc | hc | hc
    · exact absurd h1 (not_le.2 hc)
    · exact absurd h2 (not_le.2 hc)
    · exact absurd h3 (not_le.2 hc)
    · exact absurd h4 (not_le.2 hc)
  rw [run_array _ hn]
  have he : rotateAllTol o v = .error .valueError := by
    unfold rotateAllTol
    rcases v with _ | ⟨p, t⟩
    · simp
    · rw [if_neg (by simp), List.mapM_cons, rotateVectorsTol_error hq h]
      rfl
  rw [he]

/-- Twice the quaternion of no rotation. -/
example : molecule2particlesRun [((3 : ℝ), (4 : ℝ), (0 : ℝ))] (.array [((2 : ℝ) : Quat)])
    [((1 : ℝ), (0 : ℝ), (0 : ℝ))] = (.error .valueError, .array [((2 : ℝ) : Quat)]) := by
  have h2 : Real.sqrt (normSq ((2 : ℝ) : Quat)) = 2 := by
    rw [normSq_coe]
    exact Real.sqrt_sq (by norm_num)
  refine C166_refused _ (q := ((2 : ℝ) : Quat)) (r := ((2 : ℝ) : Quat)) (List.mem_singleton.2 rfl)
    (List.mem_singleton.2 rfl) ?_ (Or.inl ?_) _
  · rw [h2]
    norm_num
  · rw [re_coe]
    norm_num

end Verif.Dynamics
