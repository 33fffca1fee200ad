import Verif.Order.Props
/-!
# Exactly when the distances are as documented: C64
-/

namespace Verif.Order

open Verif.Motion

/-- **C64, exactly.**  The distances are as documented, with -1 for the neighbours that are missing, if
and only if none are missing: every particle has as many others within the radius as were asked for. -/
theorem C64_exactly (freud : Freud) (hf : freud.Correct) (box : List ℝ) (hbox : 3 ≤ box.length)
    (pos : List V3) (r : ℝ) (k : Nat) :
    ∃ b res, createFreudBox box true = .ok b ∧ relativeDistances freud box pos r k = .ok res ∧
      ((∀ i, i < pos.length → ∃ found row, IsNearest b pos r k i found ∧ res[i]? = some row ∧
        row.length = k ∧
        (∀ (j : Nat) (x : Nat × ℝ), found[j]? = some x → row[j]? = some (Real.sqrt (distSq b pos i x.1))) ∧
        (∀ j : Nat, found.length ≤ j → j < k → row[j]? = some (-1))) ↔
      ∀ i, i < pos.length → k ≤ (within b pos r i).card) := by
  obtain ⟨b, res, hb, hres, hlen, hrow⟩ := C64_distances_partial freud hf box hbox pos r k
  refine ⟨b, res, hb, hres, ⟨fun h i hi => ?_, fun h i hi => ?_⟩⟩
  · by_contra hlt
    obtain ⟨found, row, hn, hr, -, -, hm⟩ := h i hi
    obtain ⟨found', row', hn', hr', -, -, hm'⟩ := hrow i hi
    rw [hr] at hr'
    obtain rfl := Option.some.inj hr'
    have e1 := IsNearest.length_eq hn
    have e2 := IsNearest.length_eq hn'
    have hc : (within b pos r i).card < k := by omega
    have h1 := hm (within b pos r i).card (by omega) hc
    have h2 := hm' (within b pos r i).card (by omega) hc
    rw [h1] at h2
    have := Option.some.inj h2
    norm_num at this
  · obtain ⟨found, row, hn, hr, hl, hd, -⟩ := hrow i hi
    refine ⟨found, row, hn, hr, hl, hd, fun j hj hjk => ?_⟩
    have e1 := IsNearest.length_eq hn
    have := h i hi
    omega

example : refFreud.Correct ∧ 3 ≤ ([10, 10, 10] : List ℝ).length := ⟨refFreud_correct, by simp⟩

end Verif.Order
