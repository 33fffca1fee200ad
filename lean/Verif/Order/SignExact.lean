import Verif.Order.ModelProps
/-!
# Exactly which angles depend on the sign that is stored: C114
-/

namespace Verif.Order

open Verif.Motion

/-- **C114, exactly.**  The angle that the model is given for two molecules stays when the sign of one of their quaternions
is changed iff they have the same orientation or are half a turn apart, as quaternions at right angles. -/
theorem C114_exactly (p q : Quat) (hp : dot p p = 1) (hq : dot q q = 1) :
    (2 * intrinsicDistance (-p) q = 2 * intrinsicDistance p q ↔ p = q ∨ p = -q ∨ dot p q = 0) ∧
    (2 * intrinsicDistance p (-q) = 2 * intrinsicDistance p q ↔ p = q ∨ p = -q ∨ dot p q = 0) := by
  have h2 : intrinsicDistance p (-q) = intrinsicDistance (-p) q :=
    intrinsic_congr (neg_unit hp) hq hp (neg_unit hq) (by rw [dot_neg_left, dot_neg_right])
      (by rw [neg_neg, neg_inj])
  rw [h2, and_self]
  rw [intrinsic_neg p q hp hq]
  split
  · rename_i h
    rcases h with rfl | rfl
    · simp [intrinsic_self _ hp]
    · rw [intrinsic_eq _ _ hp hq, if_pos rfl]
      simp
  · rename_i h
    rw [not_or] at h
    rw [intrinsic_eq _ _ hp hq, if_neg h.2]
    constructor
    · intro e
      exact .inr (.inr (Real.arccos_eq_pi_div_two.1 (by linarith)))
    · rintro (e | e | e)
      · exact absurd e h.1
      · exact absurd e h.2
      · rw [Real.arccos_eq_pi_div_two.2 e]; ring

/-- Two orientations for which the sign matters, and a half turn, for which it does not. -/
example : dot (⟨3 / 5, 0, 0, 4 / 5⟩ : Quat) ⟨3 / 5, 0, 0, 4 / 5⟩ = 1 ∧
    ¬ ((⟨3 / 5, 0, 0, 4 / 5⟩ : Quat) = ⟨1, 0, 0, 0⟩ ∨ (⟨3 / 5, 0, 0, 4 / 5⟩ : Quat) = -⟨1, 0, 0, 0⟩ ∨
      dot (⟨3 / 5, 0, 0, 4 / 5⟩ : Quat) ⟨1, 0, 0, 0⟩ = 0) ∧
    dot (⟨0, 0, 0, 1⟩ : Quat) ⟨1, 0, 0, 0⟩ = 0 := by
  refine ⟨by norm_num [dot], ?_, by norm_num [dot]⟩
  rintro (h | h | h)
  · have := congrArg (fun q : Quat => q.re) h
    norm_num at this
  · have := congrArg (fun q : Quat => q.re) h
    simp at this
    norm_num at this
  · norm_num [dot] at h

end Verif.Order
