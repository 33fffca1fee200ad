import Verif.Dynamics.OverlapProps
/-!
# Exactly when `mobile_overlap` is a proportion: C37
-/

namespace Verif.Dynamics

/-- **C37, exactly.**  The overlap is a number from 0 to 1 if and only if there are at least ten
molecules; with fewer it is a ZeroDivisionError. -/
theorem C37_exactly {argsort : List ℝ → List ℕ} (hs : Sorts argsort) (a b : List ℝ) :
    ((∃ x, mobileOverlap argsort a b = .ok x ∧ 0 ≤ x ∧ x ≤ 1) ↔ 10 ≤ a.length) ∧
    (mobileOverlap argsort a b = .error .zeroDivisionError ↔ a.length < 10) := by
  refine ⟨⟨fun ⟨x, hx, _⟩ => ?_, C37_range_partial hs a b⟩, ⟨fun h => ?_, C37_refuted argsort a b⟩⟩
  · by_contra hn
    rw [C37_refuted argsort a b (by omega)] at hx
    cases hx
  · by_contra hn
    obtain ⟨x, hx, _⟩ := C37_range_partial hs a b (by omega)
    rw [hx] at h
    cases h

/-- Nine molecules. -/
example {argsort : List ℝ → List ℕ} (hs : Sorts argsort) :
    mobileOverlap argsort (List.replicate 9 1) (List.replicate 9 1) = .error .zeroDivisionError :=
  (C37_exactly hs _ _).2.2 (by simp)

end Verif.Dynamics
