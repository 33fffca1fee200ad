import Mathlib.Algebra.BigOperators.Fin
import Verif.Dynamics.EndToEnd
import Verif.Pipeline.PartsSpec
import Verif.Pipeline.SharesLemmas
/-!
# Averages over a system made of two parts
-/

namespace Verif.Pipeline

open Verif.Motion Verif.Dynamics

variable {N₁ N₂ : ℕ}

theorem avg_parts (h₁ : 0 < N₁) (h₂ : 0 < N₂) (f : Fin (N₁ + N₂) → ℝ) :
    avg f = (N₁ * avg (fun m => f (Fin.castAdd N₂ m)) + N₂ * avg (fun m => f (Fin.natAdd N₁ m))) /
      (N₁ + N₂) := by
  have h1 : (0 : ℝ) < N₁ := by exact_mod_cast h₁
  have h2 : (0 : ℝ) < N₂ := by exact_mod_cast h₂
  unfold avg
  rw [Fin.sum_univ_add]
  push_cast
  field_simp

theorem avg_weighted {M : ℕ} (f g : Fin M → ℝ) (w₁ w₂ w : ℝ) :
    avg (fun j => (w₁ * f j + w₂ * g j) / w) = (w₁ * avg f + w₂ * avg g) / w := by
  unfold avg
  rw [← Finset.sum_div, Finset.sum_add_distrib, ← Finset.mul_sum, ← Finset.mul_sum]
  ring

open Classical in
theorem share_avg {N : ℕ} (p : Fin N → Prop) :
    ((Finset.univ.filter p).card : ℝ) / N = avg (fun m => if p m then (1 : ℝ) else 0) := by
  unfold avg
  rw [Finset.sum_boole]

theorem follows_joined {c : Cell} {n : ℕ} {u₁ s₁ : ℕ → Fin N₁ → V3} {θ₁ σ₁ : ℕ → Fin N₁ → ℝ}
    {o₁ : ℕ → Option (Fin N₁ → Quat)} {u₂ s₂ : ℕ → Fin N₂ → V3} {θ₂ σ₂ : ℕ → Fin N₂ → ℝ}
    {o₂ : ℕ → Option (Fin N₂ → Quat)} (h₁ : Follows c n u₁ s₁ θ₁ σ₁ o₁) (h₂ : Follows c n u₂ s₂ θ₂ σ₂ o₂) :
    Follows c n (joined u₁ u₂) (joined s₁ s₂) (joined θ₁ θ₂) (joined σ₁ σ₂) (joinedO o₁ o₂) := by
  refine ⟨h₁.cell, ?_, ?_, ?_, ?_, ?_⟩
  · intro i hi m
    refine Fin.addCases (fun m => ?_) (fun m => ?_) m
    · simpa [joined] using h₁.image i hi m
    · simpa [joined] using h₂.image i hi m
  · intro i hi m
    refine Fin.addCases (fun m => ?_) (fun m => ?_) m
    · simpa [joined] using h₁.stepT i hi m
    · simpa [joined] using h₂.stepT i hi m
  · intro i m
    refine Fin.addCases (fun m => ?_) (fun m => ?_) m
    · simpa [joined] using h₁.sign i m
    · simpa [joined] using h₂.sign i m
  · intro i
    unfold joinedO
    rw [h₁.orient, h₂.orient]
    refine congrArg some ?_
    funext m
    refine Fin.addCases (fun m => ?_) (fun m => ?_) m
    · simp [joined]
    · simp [joined]
  · intro i hi m
    refine Fin.addCases (fun m => ?_) (fun m => ?_) m
    · simpa [joined] using h₁.stepR i hi m
    · simpa [joined] using h₂.stepR i hi m

/-- Weighted means of numbers and of their squares. -/
theorem excess_parts {w₁ w₂ a₁ a₂ b₁ b₂ k x₁ x₂ x : ℝ} (hk : 0 < k) (hw₁ : 0 < w₁) (hw₂ : 0 < w₂)
    (ha₁ : 0 ≤ a₁) (ha₂ : 0 ≤ a₂)
    (h₁ : excess b₁ (k * a₁ ^ 2) = some x₁) (h₂ : excess b₂ (k * a₂ ^ 2) = some x₂)
    (h : excess ((w₁ * b₁ + w₂ * b₂) / (w₁ + w₂)) (k * ((w₁ * a₁ + w₂ * a₂) / (w₁ + w₂)) ^ 2) = some x)
    (hb₁ : 0 ≤ b₁) (hb₂ : 0 ≤ b₂) :
    min x₁ x₂ ≤ x := by
  classical
  unfold excess at h₁ h₂ h
  split at h₁
  · cases h₁
  split at h₂
  · cases h₂
  split at h
  · cases h
  rename_i n₁ n₂ n
  obtain rfl := Option.some.inj h₁
  obtain rfl := Option.some.inj h₂
  obtain rfl := Option.some.inj h
  have p₁ : 0 < a₁ := lt_of_le_of_ne ha₁ (by rintro rfl; simp at n₁)
  have p₂ : 0 < a₂ := lt_of_le_of_ne ha₂ (by rintro rfl; simp at n₂)
  rw [min_sub_sub_right]
  refine sub_le_sub_right ?_ 1
  set y := min (b₁ / (k * a₁ ^ 2)) (b₂ / (k * a₂ ^ 2)) with hy
  have y0 : 0 ≤ y := le_min (by positivity) (by positivity)
  have y₁ : y * (k * a₁ ^ 2) ≤ b₁ := (le_div_iff₀ (by positivity)).1 (min_le_left _ _)
  have y₂ : y * (k * a₂ ^ 2) ≤ b₂ := (le_div_iff₀ (by positivity)).1 (min_le_right _ _)
  rw [le_div_iff₀ (by positivity), le_div_iff₀ (by positivity), div_pow]
  have e : y * (k * ((w₁ * a₁ + w₂ * a₂) ^ 2 / (w₁ + w₂) ^ 2)) * (w₁ + w₂) =
      y * k * ((w₁ * a₁ + w₂ * a₂) ^ 2 / (w₁ + w₂)) := by
    field_simp
  rw [e]
  have hc : (w₁ * a₁ + w₂ * a₂) ^ 2 / (w₁ + w₂) ≤ w₁ * a₁ ^ 2 + w₂ * a₂ ^ 2 := by
    rw [div_le_iff₀ (by positivity)]
    have : 0 ≤ w₁ * w₂ * (a₁ - a₂) ^ 2 := by positivity
    nlinarith
  have : y * k * ((w₁ * a₁ + w₂ * a₂) ^ 2 / (w₁ + w₂)) ≤ y * k * (w₁ * a₁ ^ 2 + w₂ * a₂ ^ 2) := by gcongr
  nlinarith [mul_le_mul_of_nonneg_left y₁ hw₁.le, mul_le_mul_of_nonneg_left y₂ hw₂.le]

end Verif.Pipeline
