import Mathlib.Algebra.Order.Chebyshev
import Verif.Pipeline.Lemmas
import Verif.Pipeline.KeyframesSpec
/-!
# The triangle inequality for means and for root mean squares
-/

namespace Verif.Pipeline

open Verif.Motion Verif.Dynamics

theorem len_triangle (v w : V3) : len (v + w) ≤ len v + len w := by
  have hv : 0 ≤ len v := Real.sqrt_nonneg _
  have hw : 0 ≤ len w := Real.sqrt_nonneg _
  have h0 : ∀ x : V3, 0 ≤ len2 x := fun x => by
    unfold len2; nlinarith [mul_self_nonneg x.1, mul_self_nonneg x.2.1, mul_self_nonneg x.2.2]
  have hv2 : len v ^ 2 = len2 v := Real.sq_sqrt (h0 v)
  have hw2 : len w ^ 2 = len2 w := Real.sq_sqrt (h0 w)
  have hdot : v.1 * w.1 + v.2.1 * w.2.1 + v.2.2 * w.2.2 ≤ len v * len w := by
    apply le_trans (le_abs_self _)
    apply abs_le_of_sq_le_sq _ (by positivity)
    rw [mul_pow, hv2, hw2]
    unfold len2
    nlinarith [sq_nonneg (v.1 * w.2.1 - v.2.1 * w.1), sq_nonneg (v.1 * w.2.2 - v.2.2 * w.1),
      sq_nonneg (v.2.1 * w.2.2 - v.2.2 * w.2.1)]
  refine Real.sqrt_le_iff.2 ⟨by positivity, ?_⟩
  have : len2 (v + w) = len2 v + len2 w + 2 * (v.1 * w.1 + v.2.1 * w.2.1 + v.2.2 * w.2.2) := by
    simp only [len2, Prod.fst_add, Prod.snd_add]
    ring
  rw [this]
  nlinarith

theorem avg_triangle {N : ℕ} (f g h : Fin N → ℝ) (hh : ∀ m, h m ≤ f m + g m) : avg h ≤ avg f + avg g := by
  unfold avg
  rw [← add_div, ← Finset.sum_add_distrib]
  gcongr with m
  exact hh m

/-- Root mean squares. -/
theorem rms_triangle {N : ℕ} (f g h : Fin N → ℝ) (h0 : ∀ m, 0 ≤ h m) (hf : ∀ m, 0 ≤ f m) (hg : ∀ m, 0 ≤ g m)
    (hh : ∀ m, h m ≤ f m + g m) :
    Real.sqrt (avg (fun m => h m ^ 2)) ≤
      Real.sqrt (avg (fun m => f m ^ 2)) + Real.sqrt (avg (fun m => g m ^ 2)) := by
  have hF : 0 ≤ avg (fun m => f m ^ 2) := div_nonneg (Finset.sum_nonneg fun m _ => sq_nonneg _) (Nat.cast_nonneg _)
  have hG : 0 ≤ avg (fun m => g m ^ 2) := div_nonneg (Finset.sum_nonneg fun m _ => sq_nonneg _) (Nat.cast_nonneg _)
  have hFs := Real.sq_sqrt hF
  have hGs := Real.sq_sqrt hG
  have hcs : avg (fun m => f m * g m) ≤
      Real.sqrt (avg (fun m => f m ^ 2)) * Real.sqrt (avg (fun m => g m ^ 2)) := by
    apply le_trans (le_abs_self _)
    apply abs_le_of_sq_le_sq _ (by positivity)
    rw [mul_pow, hFs, hGs]
    unfold avg
    rw [div_pow, div_mul_div_comm, ← sq]
    gcongr
    exact Finset.sum_mul_sq_le_sq_mul_sq _ _ _
  refine Real.sqrt_le_iff.2 ⟨by positivity, ?_⟩
  have h1 : avg (fun m => h m ^ 2) ≤ avg (fun m => f m ^ 2) + avg (fun m => g m ^ 2) +
      2 * avg (fun m => f m * g m) := by
    have : avg (fun m => f m ^ 2) + avg (fun m => g m ^ 2) + 2 * avg (fun m => f m * g m) =
        avg (fun m => f m ^ 2 + g m ^ 2 + 2 * (f m * g m)) := by
      unfold avg
      rw [Finset.sum_add_distrib, Finset.sum_add_distrib, ← Finset.mul_sum]
      ring
    rw [this]
    unfold avg
    gcongr with m
    nlinarith [h0 m, hf m, hg m, hh m]
  nlinarith

/-- A displacement in two parts. -/
theorem flat_split (c : Cell) (a b d : V3) : c.flat (d - a) = c.flat (d - b) + c.flat (b - a) := by
  unfold Cell.flat
  split <;> ext <;> simp

end Verif.Pipeline
