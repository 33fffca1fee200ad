import Verif.Order.Props
/-!
# Exactly when `num_neighbours` counts the particles within the radius: C83
-/

namespace Verif.Order

open Verif.Motion

/-- **C83, exactly.**  The count for particle `i` is the number of particles within the radius if and
only if there are at most nine. -/
theorem C83_exactly (freud : Freud) (hf : freud.Correct) (box : List ℝ)
    (hbox : 3 ≤ box.length) (pos : List V3) (r : ℝ) :
    ∃ b res, createFreudBox box true = .ok b ∧ numNeighbours freud box pos r = .ok res ∧
      ∀ i, i < pos.length → (res[i]? = some (within b pos r i).card ↔ (within b pos r i).card ≤ 9) := by
  obtain ⟨b, res, hb, hres, _, hc⟩ := C83_num_neighbours_partial freud hf box hbox pos r
  refine ⟨b, res, hb, hres, fun i hi => ?_⟩
  rw [hc i hi, Option.some.injEq]
  omega

/-- Eleven particles at one place. -/
example : ∃ b res, createFreudBox [10, 10, 10] true = .ok b ∧
    numNeighbours refFreud [10, 10, 10] (List.replicate 11 (0, 0, 0)) 3.5 = .ok res ∧
    ∀ i, i < 11 → (res[i]? = some (within b (List.replicate 11 (0, 0, 0)) 3.5 i).card ↔
      (within b (List.replicate 11 (0, 0, 0)) 3.5 i).card ≤ 9) := by
  obtain ⟨b, res, h1, h2, h3⟩ := C83_exactly refFreud refFreud_correct [10, 10, 10] (by simp)
    (List.replicate 11 (0, 0, 0)) 3.5
  exact ⟨b, res, h1, h2, fun i hi => h3 i (by simpa using hi)⟩

end Verif.Order
