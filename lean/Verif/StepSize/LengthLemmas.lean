import Mathlib.Algebra.Order.BigOperators.Group.Finset
import Mathlib.Data.Finset.Prod
import Mathlib.Data.Int.Interval
import Mathlib.Order.Interval.Finset.Nat
import Verif.StepSize.Props
/-!
# Lemmas for the number of steps
-/

namespace Verif.StepSize

/-- The points of the decade grid below `num_linear * 10^k`, from `start`. -/
def gridPoints (nl start : Int) (k : Nat) : Finset Int :=
  insert start ((Finset.Icc 1 nl.toNat ×ˢ Finset.range (k + 1)).image
    (fun p => start + (p.1 : Int) * 10 ^ p.2))

theorem gridPoints_card (nl start : Int) (k : Nat) :
    (gridPoints nl start k).card ≤ nl.toNat * (k + 1) + 1 := by
  refine (Finset.card_insert_le _ _).trans ?_
  refine Nat.add_le_add_right (Finset.card_image_le.trans ?_) 1
  rw [Finset.card_product]
  simp

theorem mem_gridPoints {total nl start x : Int} {k : Nat} (hnl : 1 ≤ nl)
    (hk : total - start ≤ nl * 10 ^ k) (hx : start ≤ x ∧ x < total ∧ OnGrid nl (x - start)) :
    x ∈ gridPoints nl start k := by
  obtain ⟨h1, h2, j, i, hi, hd, hj⟩ := hx
  unfold gridPoints
  rw [Finset.mem_insert]
  rcases Nat.eq_zero_or_pos i with rfl | hi0
  · left
    simp at hd
    omega
  right
  rw [Finset.mem_image]
  refine ⟨(i, j), ?_, by simp only; omega⟩
  rw [Finset.mem_product, Finset.mem_Icc, Finset.mem_range]
  refine ⟨⟨hi0, by simp only; omega⟩, ?_⟩
  rcases hj with rfl | hj
  · simp
  · by_contra hlt
    have h3 : k ≤ j - 1 := by simp only at hlt; omega
    have h4 : (10 : Int) ^ k ≤ 10 ^ (j - 1) := pow_le_pow_right₀ (by norm_num) h3
    have h5 : nl * 10 ^ k ≤ nl * 10 ^ (j - 1) := Int.mul_le_mul_of_nonneg_left h4 (by omega)
    omega

theorem length_le_card {l : List Int} (hl : l.Pairwise (· < ·)) {s : Finset Int} (h : ∀ x ∈ l, x ∈ s) :
    l.length ≤ s.card := by
  have hn : l.Nodup := hl.imp (fun h => ne_of_lt h)
  rw [← List.toFinset_card_of_nodup hn]
  exact Finset.card_le_card (fun x hx => h x (List.mem_toFinset.1 hx))

end Verif.StepSize
