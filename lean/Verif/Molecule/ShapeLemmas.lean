import Mathlib.Analysis.SpecialFunctions.Trigonometric.Basic
import Verif.Molecule.ShapeSpec
import Verif.Molecule.Lemmas
/-!
# Lemmas for the shape of molecules
-/

namespace Verif.Molecule

open Verif.Motion (V3)

theorem Arg.toReal_of_attr {a b : Arg} (ha : a.attr ≠ .nan) (h : a.attr = b.attr) (hm : a.attr ≠ .missing) :
    a.toReal = b.toReal := by
  cases a <;> cases b <;> simp_all [Arg.attr, Arg.toReal]

theorem trimer_ok {r d a : Arg} {m : Mol} (h : trimer r d a = .ok m) :
    r.isNumber = true ∧ d.isNumber = true ∧ a.isNumber = true ∧
      m = initMolecule .trimer 2 ["A", "B", "B"]
        (trimerPositions (d.toReal.getD 0) (a.toReal.getD 0))
        [("A", 1), ("B", r.toReal.getD 0)] true r.attr d.attr a.attr := by
  unfold trimer at h
  by_cases h1 : r.isNumber = false
  · rw [if_pos h1] at h; cases h
  by_cases h2 : d.isNumber = false
  · rw [if_neg h1, if_pos h2] at h; cases h
  by_cases h3 : a.isNumber = false
  · rw [if_neg h1, if_neg h2, if_pos h3] at h; cases h
  rw [if_neg h1, if_neg h2, if_neg h3] at h
  exact ⟨by simpa using h1, by simpa using h2, by simpa using h3, (Except.ok.inj h).symm⟩

theorem dimer_ok {r d : Arg} {m : Mol} (h : dimer r d = .ok m) :
    m = initMolecule .dimer 2 ["A", "B"] [(0, 0, 0), (0, d.toReal.getD 0, 0)]
      [("A", 1), ("B", r.toReal.getD 0)] true r.attr d.attr .missing ∧ d ≠ .other := by
  unfold dimer at h
  cases d <;> simp_all

theorem Arg.attr_ne_missing {a : Arg} (h : a.isNumber = true) : a.attr ≠ .missing := by
  cases a <;> simp_all [Arg.isNumber, Arg.attr]

/-- Differences of the places of a trimer. -/
theorem trimer_differences {d a d' a' : ℝ}
    (h : (trimerPositions d a).map (fun p => p - centre (trimerPositions d a)) =
      (trimerPositions d' a').map (fun p => p - centre (trimerPositions d' a'))) :
    d * Real.sin (deg2rad a / 2) = d' * Real.sin (deg2rad a' / 2) ∧
      d * Real.cos (deg2rad a / 2) = d' * Real.cos (deg2rad a' / 2) := by
  set c := centre (trimerPositions d a)
  set c' := centre (trimerPositions d' a')
  simp only [trimerPositions, List.map_cons, List.map_nil, List.cons.injEq, and_true] at h
  obtain ⟨h0, -, h2⟩ := h
  have e : ((d * Real.sin (deg2rad a / 2), d * Real.cos (deg2rad a / 2), 0) : V3) =
      (d' * Real.sin (deg2rad a' / 2), d' * Real.cos (deg2rad a' / 2), 0) := by
    have h3 : c = c' := by
      have := congrArg (fun x : V3 => -x) h0
      simpa [← Prod.zero_eq_mk] using this
    rw [h3] at h2
    simpa using h2
  simp only [Prod.mk.injEq, and_true] at e
  exact e

/-- The distance and the angle are given by the places, for positive distances and angles below a full
circle. -/
theorem polar_unique {d a d' a' : ℝ} (hd : 0 < d) (hd' : 0 < d') (ha : 0 ≤ a ∧ a ≤ 360) (ha' : 0 ≤ a' ∧ a' ≤ 360)
    (h1 : d * Real.sin (deg2rad a / 2) = d' * Real.sin (deg2rad a' / 2))
    (h2 : d * Real.cos (deg2rad a / 2) = d' * Real.cos (deg2rad a' / 2)) : d = d' ∧ a = a' := by
  have e : d ^ 2 = d' ^ 2 := by
    have s1 := Real.sin_sq_add_cos_sq (deg2rad a / 2)
    have s2 := Real.sin_sq_add_cos_sq (deg2rad a' / 2)
    calc d ^ 2 = d ^ 2 * (Real.sin (deg2rad a / 2) ^ 2 + Real.cos (deg2rad a / 2) ^ 2) := by rw [s1, mul_one]
      _ = (d * Real.sin (deg2rad a / 2)) ^ 2 + (d * Real.cos (deg2rad a / 2)) ^ 2 := by ring
      _ = d' ^ 2 * (Real.sin (deg2rad a' / 2) ^ 2 + Real.cos (deg2rad a' / 2) ^ 2) := by rw [h1, h2]; ring
      _ = _ := by rw [s2, mul_one]
  have e1 : d = d' := by
    rcases sq_eq_sq_iff_eq_or_eq_neg.1 e with h | h
    · exact h
    · linarith
  subst e1
  refine ⟨rfl, ?_⟩
  have hc := mul_left_cancel₀ hd.ne' h2
  have hpi := Real.pi_pos
  have m {x : ℝ} (hx : 0 ≤ x ∧ x ≤ 360) : deg2rad x / 2 ∈ Set.Icc 0 Real.pi := by
    unfold deg2rad
    constructor
    · have := mul_nonneg hx.1 hpi.le; linarith
    · have := mul_le_mul_of_nonneg_right hx.2 hpi.le; linarith
  have := Real.injOn_cos (m ha) (m ha') hc
  unfold deg2rad at this
  have h3 : a * Real.pi = a' * Real.pi := by linarith
  exact mul_right_cancel₀ hpi.ne' h3

/-- A full circle more gives the other side for the outer particles: half a turn. -/
theorem deg2rad_two_turns (a : ℝ) : Real.sin (deg2rad (a + 720) / 2) = Real.sin (deg2rad a / 2) ∧
    Real.cos (deg2rad (a + 720) / 2) = Real.cos (deg2rad a / 2) := by
  have : deg2rad (a + 720) / 2 = deg2rad a / 2 + 2 * Real.pi := by unfold deg2rad; ring
  rw [this]
  exact ⟨Real.sin_add_two_pi _, Real.cos_add_two_pi _⟩

end Verif.Molecule
