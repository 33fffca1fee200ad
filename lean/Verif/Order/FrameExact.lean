import Verif.Order.FrameProps
/-!
# Exactly when the order of particles is that of molecules: C176
-/

namespace Verif.Order

open Verif.Motion Verif.Frame

/-- **C176, exactly.**  When both return, the printed fraction is that of the marked molecules exactly if there are
molecules and the particles above 0.9 are the same part of all particles as the marked molecules of all molecules. -/
theorem C176_exactly (freud : Freud) (a : Arith) (s : Snapshot) (r : List ℝ) (marks : List Bool)
    (hr : orientationalOrder freud s.box.array s.position s.orientation 3.5 8 = .ok r) (hne : r ≠ [])
    (hm : orderingOfSnapshot freud a 0.9 s = .ok marks) :
    OrderAgrees freud a s ↔ marks ≠ [] ∧
      (r.filter (above 0.9)).length * marks.length = marks.count true * r.length := by
  have h0 : r.length ≠ 0 := by simpa using hne
  have h0' : (r.length : ℝ) ≠ 0 := by exact_mod_cast h0
  have hl : orderSnapshot freud s = .ok (s.step, ((r.filter (above 0.9)).length : ℝ) / r.length) := by
    rw [orderSnapshot, orderLine]
    simp only [hr, if_neg h0]
  have key : IsFraction (((r.filter (above 0.9)).length : ℝ) / r.length) marks ↔ marks ≠ [] ∧
      (r.filter (above 0.9)).length * marks.length = marks.count true * r.length := by
    unfold IsFraction
    rw [div_mul_eq_mul_div, div_eq_iff h0']
    norm_cast
  rw [← key]
  constructor
  · intro h
    exact h _ _ hl hm
  · intro h l' m' h1 h2
    rw [hl] at h1
    rw [hm] at h2
    cases h1
    cases h2
    exact h

/-- Two particles that are molecules each, one of them above 0.9 and marked. -/
example : [true, false] ≠ ([] : List Bool) ∧
    (([0.95, 0.5] : List ℝ).filter (above 0.9)).length * [true, false].length =
      [true, false].count true * ([0.95, 0.5] : List ℝ).length := by
  refine ⟨by simp, ?_⟩
  norm_num [above, List.filter_cons]

end Verif.Order
